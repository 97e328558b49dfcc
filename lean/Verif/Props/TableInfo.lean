import Verif.Props.Locations
import Verif.Lemmas.JsonText
import Batteries.Data.List.Perm

/-
C86: the line about a location table.
-/

namespace Redsea

open _root_.Redsea.Spec

/-- What the line about a location table says. -/
def tableInfo (db : LocationDatabase) : Value :=
  .object [(ascii "location_table_info", .object [(ascii "ltn", .integer db.ltn.toNat),
    (ascii "num_points", .integer db.numPoints), (ascii "num_roads", .integer db.numRoads),
    (ascii "num_names", .integer db.numNames)])]

/-- The object that has the same text. -/
def tableJson (db : LocationDatabase) : J :=
  .obj [("location_table_info", .obj [("ltn", .int db.ltn.toNat), ("num_points", .int db.numPoints),
    ("num_roads", .int db.numRoads), ("num_names", .int db.numNames)])]

theorem intStr_nat (n : Nat) : intStr (n : Int) = decimal n := by
  rcases intStr_cases n with ⟨h, -⟩ | ⟨k, h, hk⟩
  · rw [h]; rfl
  · have : (n : Int) = (-(k : Int)) := hk
    have hn : n = 0 := by omega
    subst hn
    rfl

theorem tableText_dump (F : BitVec 32 → Str) (db : LocationDatabase) : db.text = (tableJson db).dump F ++ [0x0A] := by
  have n1 : quoteStr (utf8Str "location_table_info") = ascii "\"location_table_info\"" := by decide +kernel
  have n2 : quoteStr (utf8Str "ltn") = ascii "\"ltn\"" := by decide +kernel
  have n3 : quoteStr (utf8Str "num_points") = ascii "\"num_points\"" := by decide +kernel
  have n4 : quoteStr (utf8Str "num_roads") = ascii "\"num_roads\"" := by decide +kernel
  have n5 : quoteStr (utf8Str "num_names") = ascii "\"num_names\"" := by decide +kernel
  have m1 : ascii "{\"location_table_info\":{" = 0x7B :: (ascii "\"location_table_info\"" ++ [0x3A, 0x7B]) := by decide +kernel
  have m2 : ascii "\"ltn\":" = ascii "\"ltn\"" ++ [0x3A] := by decide +kernel
  have m3 : ascii "\"num_points\":" = ascii "\"num_points\"" ++ [0x3A] := by decide +kernel
  have m4 : ascii "\"num_roads\":" = ascii "\"num_roads\"" ++ [0x3A] := by decide +kernel
  have m5 : ascii "\"num_names\":" = ascii "\"num_names\"" ++ [0x3A] := by decide +kernel
  have m6 : ascii "," = [0x2C] := by decide +kernel
  have m7 : ascii "}}" = [0x7D, 0x7D] := by decide +kernel
  unfold LocationDatabase.text tableJson
  simp only [J.dump, J.dumpMembers, J.dumpMoreMembers, intStr_nat]
  rw [n1, n2, n3, n4, n5, m1, m2, m3, m4, m5, m6, m7]
  simp only [List.append_assoc, List.cons_append, List.nil_append, List.append_nil]

/-- **C86**: the line about a location table is a JSON text that says the number of the table and how many points, roads and
names it has. -/
theorem C86_line (db : LocationDatabase) : ∃ s, db.text = s ++ [0x0A] ∧ (∀ b ∈ s, 0x20 ≤ b.toNat ∧ b.toNat < 0x80) ∧
    readText s = some (.object [(ascii "location_table_info", .object [(ascii "ltn", .integer db.ltn.toNat),
      (ascii "num_points", .integer db.numPoints), (ascii "num_roads", .integer db.numRoads),
      (ascii "num_names", .integer db.numNames)])]) := by
  have hF : NumberTexts (fun _ => ascii "0.0") := fun _ => by rfl
  refine ⟨(tableJson db).dump fun _ => ascii "0.0", tableText_dump _ db, ?_, ?_⟩
  · intro b hb
    refine ⟨dump_bytes hF _ b hb, ?_⟩
    have hm : b ∈ db.text := by
      rw [tableText_dump (fun _ => ascii "0.0")]
      exact List.mem_append_left _ hb
    have hdec : ∀ n, ∀ c ∈ decimal n, c.toNat < 0x80 := fun n c hc =>
      number_ascii (numberByte_digit ((decimal_facts n).1 c hc))
    have lit : ∀ s ∈ ["{\"location_table_info\":{", "\"ltn\":", ",", "\"num_points\":", "\"num_roads\":", "\"num_names\":", "}}"],
        ∀ c ∈ ascii s, c.toNat < 0x80 := by decide +kernel
    unfold LocationDatabase.text at hm
    simp only [List.mem_append] at hm
    rcases hm with (((((((((((((hm | hm) | hm) | hm) | hm) | hm) | hm) | hm) | hm) | hm) | hm) | hm) | hm) | hm)
    · exact lit _ (by simp) b hm
    · exact lit _ (by simp) b hm
    · exact hdec _ b hm
    · exact lit _ (by simp) b hm
    · exact lit _ (by simp) b hm
    · exact hdec _ b hm
    · exact lit _ (by simp) b hm
    · exact lit _ (by simp) b hm
    · exact hdec _ b hm
    · exact lit _ (by simp) b hm
    · exact lit _ (by simp) b hm
    · exact hdec _ b hm
    · exact lit _ (by simp) b hm
    · rw [List.mem_singleton.mp hm]; decide
  · rw [readText_dump hF]
    have hn : ∀ s ∈ ["location_table_info", "ltn", "num_points", "num_roads", "num_names"], unicodeBytes s = ascii s := by
      intro s hs
      rw [unicodeBytes_eq]
      revert s
      decide +kernel
    simp only [tableJson, valueOf, membersOf]
    rw [hn _ (by simp), hn _ (by simp), hn _ (by simp), hn _ (by simp), hn _ (by simp)]

/-- **C86**: after loading a table from its files, the number is that of the table, and the points and roads
that are counted are those that the table has. -/
theorem C86_counts (l : LocationTable) (hv : l.Valid) (f : LocationFiles) (hf : l.InFiles f)
    (converter : TextConverter) (convert : Str → Option Str) (hc : converter (locationEncoding f) = some convert)
    (toDegrees : Int → BitVec 32) :
    ∃ db, loadLocationDatabase converter toDegrees f = some db ∧
      ((∃ r, some r ∈ l.points) → db.ltn = l.number) ∧
      CountOf (fun lcd => ∃ r, l.point lcd = some r) db.numPoints ∧
      CountOf (fun lcd => ∃ r, l.road lcd = some r) db.numRoads := by
  obtain ⟨db, h1, h2, h3, h4, h5, h6, -⟩ := locations_loaded l hv f hf converter convert hc toDegrees
  refine ⟨db, h1, h2, countOf_congr (fun lcd => ?_) h5, countOf_congr (fun lcd => ?_) h6⟩
  · rw [h4, Option.isSome_map, Option.isSome_iff_exists]
  · rw [h3, Option.isSome_map, Option.isSome_iff_exists]

/-- **C86** (partial): the names are counted if every text can be converted, and every point that has its road from a
segment has a name of that road of its own. Missing: other points, see `C86_names_violated`. -/
theorem C86_names_partial (l : LocationTable) (hv : l.Valid) (f : LocationFiles) (hf : l.InFiles f)
    (converter : TextConverter) (convert : Str → Option Str) (hc : converter (locationEncoding f) = some convert)
    (toDegrees : Int → BitVec 32) (hn : ∀ r, some r ∈ l.names → (convert r.name).isSome)
    (hp : ∀ r, some r ∈ l.points → l.BySegment r → ∃ i, r.rnid = some i ∧ l.HasName i) :
    ∃ db, loadLocationDatabase converter toDegrees f = some db ∧ CountOf l.HasName db.numNames := by
  obtain ⟨db, h1, -, -, -, -, -, h7⟩ := locations_loaded l hv f hf converter convert hc toDegrees
  refine ⟨db, h1, countOf_congr (fun i => ?_) h7⟩
  constructor
  · rintro (⟨r, hr, hi, -⟩ | ⟨r, hr, hs, hi⟩)
    · exact ⟨r, hr, hi⟩
    · obtain ⟨k, hk, hname⟩ := hp r hr hs
      rw [hk, Option.getD_some] at hi
      rw [← hi]
      exact hname
  · rintro ⟨r, hr, hi⟩
    exact .inl ⟨r, hr, hi, hn r hr⟩

/-- **C86** is violated for names: each number of a road name that is missing in the row of a point, or not in the list of names,
is counted as one more name, if the point has its road from a segment. -/
theorem C86_names_violated (l : LocationTable) (hv : l.Valid) (f : LocationFiles) (hf : l.InFiles f)
    (converter : TextConverter) (convert : Str → Option Str) (hc : converter (locationEncoding f) = some convert)
    (toDegrees : Int → BitVec 32) (hn : ∀ r, some r ∈ l.names → (convert r.name).isSome)
    (r : PointRecord) (hr : some r ∈ l.points) (hs : l.BySegment r) (hno : ∀ i, r.rnid = some i → ¬l.HasName i)
    (n : Nat) (hcount : CountOf l.HasName n) :
    ∃ db, loadLocationDatabase converter toDegrees f = some db ∧ n < db.numNames := by
  obtain ⟨db, h1, -, -, -, -, -, ⟨ks, k1, k2, k3⟩⟩ := locations_loaded l hv f hf converter convert hc toDegrees
  refine ⟨db, h1, ?_⟩
  obtain ⟨ns, n1, n2, n3⟩ := hcount
  have hnew : r.rnid.getD 0 ∉ ns := by
    rw [n3]
    cases hi : r.rnid with
    | some i => exact hno i hi
    | none =>
      rintro ⟨q, hq, h0⟩
      exact hv.names q hq h0
  have hsub : (r.rnid.getD 0 :: ns) ⊆ ks := by
    intro i hi
    rw [k3]
    rcases List.mem_cons.mp hi with rfl | hi
    · exact .inr ⟨r, hr, hs, rfl⟩
    · obtain ⟨q, hq, he⟩ := (n3 i).mp hi
      exact .inl ⟨q, hq, he, hn q hq⟩
  have := (List.subperm_of_subset (List.nodup_cons.mpr ⟨hnew, n1⟩) hsub).length_le
  rw [List.length_cons] at this
  omega

/-! Cases that meet the hypotheses. -/

/-- The small table has two names, but three are counted. -/
example : ∃ db, loadLocationDatabase (fun _ => some some) (fun _ => 0) smallFiles = some db ∧ 2 < db.numNames := by
  refine C86_names_violated smallTable smallTable_valid smallFiles smallTable_files (fun _ => some some) some rfl (fun _ => 0)
    (fun _ _ => rfl) { lcd := 7, n1id := some 2, x := some 2500000, y := some (-6000000), road := none, segment := some 6, rnid := none }
    List.mem_cons_self ⟨rfl, _, List.mem_cons_self, rfl⟩ (by intro i hi; cases hi) 2 ⟨[1, 2], by decide, rfl, ?_⟩
  intro i
  unfold LocationTable.HasName smallTable
  simp only [List.mem_cons, Option.some.injEq, List.not_mem_nil, or_false]
  constructor
  · rintro (rfl | rfl)
    · exact ⟨_, .inl rfl, rfl⟩
    · exact ⟨_, .inr rfl, rfl⟩
  · rintro ⟨r, rfl | rfl, rfl⟩
    · exact .inl rfl
    · exact .inr rfl

example : ((loadLocationDatabase (fun _ => some some) (fun _ => 0) smallFiles).map LocationDatabase.text) =
    some (ascii "{\"location_table_info\":{\"ltn\":17,\"num_points\":2,\"num_roads\":1,\"num_names\":3}}" ++ [0x0A]) := by
  decide +kernel

end Redsea
