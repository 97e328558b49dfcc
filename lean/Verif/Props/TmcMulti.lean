import Verif.Props.TmcMessages

/-
C51, C52: multi-group TMC messages.
-/

namespace Redsea

open TMCService Message

/-! ### C52 -/

/-- State after a sequence of user groups. -/
def TMCService.runUser (env : TmcEnv) (s : TMCService) : List UserGroup → Option TMCService
  | [] => some s
  | g :: gs => (s.receiveUserGroup env g.x g.y g.z).bind fun r => TMCService.runUser env r.1 gs

/-- Messages are processed: the service is initialised and, if it is encrypted, its encryption
administration group has been received. -/
def TMCService.Ready (s : TMCService) : Prop :=
  s.isInitialized = true ∧ (s.isEncrypted = true → s.hasEncid = true)

/-- The parts collected so far that a group with this index would continue. -/
def startMsg (s : TMCService) (index : Nat) : Message :=
  if index ≠ s.message.continuityIndex then Message.new s.isEncrypted else s.message

/-- All groups pushed. -/
def pushAll (env : TmcEnv) (m : Message) (gs : List UserGroup) : Message :=
  gs.foldl (fun m g => m.pushMulti env g.x g.y g.z) m

theorem isLast_eq (g : UserGroup) : isLastGroup g.y = g.isLast := by
  unfold isLastGroup UserGroup.isLast UserGroup.isFirst
  rw [getBool_eq_div, getBits_eq_div]
  have := g.y.isLt
  rw [Nat.mod_eq_of_lt (show g.y.toNat / 2 ^ 15 < 2 by omega)]

theorem isFirst_eq (g : UserGroup) : getBool g.y 15 = g.isFirst := by
  unfold UserGroup.isFirst
  rw [getBool_eq_div]
  have := g.y.isLt
  rw [Nat.mod_eq_of_lt (show g.y.toNat / 2 ^ 15 < 2 by omega)]

theorem userIndex_eq (g : UserGroup) : getBits 3 g.x 0 = g.index := by
  unfold UserGroup.index
  rw [getBits_eq_div]
  simp

theorem isMulti_index (g : UserGroup) (h : g.isMulti = true) : 1 ≤ g.index ∧ g.index ≤ 7 := by
  unfold UserGroup.isMulti UserGroup.isAdmin at h
  simp only [Bool.and_eq_true, beq_iff_eq, Bool.not_eq_true', beq_eq_false_iff_ne] at h
  unfold UserGroup.index
  omega

theorem multi_path (env : TmcEnv) (s : TMCService) (g : UserGroup) (hr : s.Ready)
    (h : g.isMulti = true) :
    s.receiveUserGroup env g.x g.y g.z =
      let m := (startMsg s g.index).pushMulti env g.x g.y g.z
      if m.isComplete then
        (s.printMessage env m).bind fun out => some ({ s with message := Message.new s.isEncrypted }, out)
      else some ({ s with message := m }, []) := by
  unfold UserGroup.isMulti UserGroup.isAdmin at h
  simp only [Bool.and_eq_true, beq_iff_eq, Bool.not_eq_true', beq_eq_false_iff_ne] at h
  have h0 : getBits 5 g.x 0 ≠ 0 := by rw [getBits_eq_div]; omega
  have h4 : getBool g.x 4 = false := by
    rw [getBool_eq_div, show g.x.toNat / 2 ^ 4 % 2 = 0 by omega]; rfl
  have h3 : getBool g.x 3 = false := by
    rw [getBool_eq_div, show g.x.toNat / 2 ^ 3 % 2 = 0 by omega]; rfl
  have hee : (s.isEncrypted && !s.hasEncid) = false := by
    cases h : s.isEncrypted
    · rfl
    · rw [hr.2 h]; rfl
  unfold receiveUserGroup startMsg
  rw [userIndex_eq]
  simp only [hr.1, h0, h4, h3, hee]
  simp

theorem pushMulti_notLast (env : TmcEnv) (m : Message) (g : UserGroup) (h : g.isLast = false) :
    m.pushMulti env g.x g.y g.z = { m with
      continuityIndex := g.index
      parts := m.parts.set (groupSlot g.y) { isReceived := true, data0 := g.y, data1 := g.z } } := by
  unfold pushMulti
  rw [userIndex_eq]
  dsimp only
  rw [isLast_eq, h]
  rfl

theorem openParts_mem (index : Nat) (gs : List UserGroup) (g : UserGroup)
    (h : g ∈ openParts index gs) : g ∈ gs ∧ g.isMulti ∧ g.index = index ∧ g.isLast = false := by
  induction gs with
  | nil => cases h
  | cons a gs ih =>
    unfold openParts at h
    split at h
    · rename_i hm
      split at h
      · rename_i hc
        rcases List.mem_append.mp h with h | h
        · have := ih h
          exact ⟨by simp [this.1], this.2⟩
        · rw [List.mem_singleton] at h
          subst h
          exact ⟨by simp, hm, hc.1, by simpa using hc.2⟩
      · cases h
    · have := ih h
      exact ⟨by simp [this.1], this.2⟩

/-- Parts after groups that are not the last one. -/
def partsAfter (gs : List UserGroup) : List MessagePart :=
  gs.foldl (fun parts g => parts.set (groupSlot g.y) { isReceived := true, data0 := g.y, data1 := g.z })
    (List.replicate 5 {})

theorem pushAll_open (env : TmcEnv) (e : Bool) (index : Nat) (gs : List UserGroup)
    (h : ∀ g ∈ gs, g.index = index ∧ g.isLast = false) :
    pushAll env (Message.new e) gs = { Message.new e with
      continuityIndex := if gs = [] then 0 else index, parts := partsAfter gs } := by
  unfold pushAll partsAfter
  induction gs using snocInduction with
  | nil => rfl
  | snoc gs g ih =>
    rw [List.foldl_append, List.foldl_append, ih (fun g' hg => h g' (by simp [hg]))]
    obtain ⟨h1, h2⟩ := h g (by simp)
    simp only [List.foldl_cons, List.foldl_nil, pushMulti_notLast env _ g h2, h1]
    simp

theorem pushAll_incomplete (env : TmcEnv) (e : Bool) (index : Nat) (gs : List UserGroup)
    (h : ∀ g ∈ gs, g.index = index ∧ g.isLast = false) :
    (pushAll env (Message.new e) gs).isComplete = false := by
  rw [pushAll_open env e index gs h]
  rfl

theorem runUser_append (env : TmcEnv) (a b : List UserGroup) (s : TMCService) :
    s.runUser env (a ++ b) = (s.runUser env a).bind fun s' => s'.runUser env b := by
  induction a generalizing s with
  | nil => rfl
  | cons g a ih =>
    rw [List.cons_append, TMCService.runUser, TMCService.runUser, Option.bind_assoc]
    congr 1
    funext r
    exact ih r.1

theorem clear_index (m : Message) : m.clear.continuityIndex = 0 := rfl

theorem pushMulti_last_incomplete (env : TmcEnv) (m : Message) (g : UserGroup) (h : g.isLast = true) :
    (m.pushMulti env g.x g.y g.z).continuityIndex = 0 := by
  unfold pushMulti
  dsimp only
  rw [isLast_eq, h]
  rfl

/-- Invariant: whatever index the next group has, the message it continues consists of exactly
the open parts with this index. -/
theorem runUser_inv (env : TmcEnv) (gs : List UserGroup) (s0 s : TMCService) (hr : s0.Ready)
    (h0 : s0.message.continuityIndex = 0) (h : s0.runUser env gs = some s) :
    s.Ready ∧ s.isEncrypted = s0.isEncrypted ∧ s.message.continuityIndex ≤ 7 ∧
    ∀ index, 1 ≤ index → startMsg s index =
      pushAll env (Message.new s0.isEncrypted) (openParts index gs.reverse) := by
  induction gs using snocInduction generalizing s with
  | nil =>
    cases h
    refine ⟨hr, rfl, by omega, ?_⟩
    intro index hi
    unfold startMsg
    rw [h0, if_pos (by omega)]
    rfl
  | snoc gs g ih =>
    rw [runUser_append, Option.bind_eq_some_iff] at h
    obtain ⟨s1, h1, h2⟩ := h
    obtain ⟨hr1, he1, hc1, ih1⟩ := ih s1 h1
    rw [TMCService.runUser, Option.bind_eq_some_iff] at h2
    obtain ⟨⟨s2, out⟩, h3, h4⟩ := h2
    have h4' : s2 = s := Option.some.inj h4
    subst h4'
    obtain ⟨f1, f2, f3, _, f5⟩ := user_fields env s1 s2 g out h3
    have hr2 : s2.Ready := ⟨by rw [f1]; exact hr1.1, by rw [f2]; intro hh; exact f3 (hr1.2 hh)⟩
    have he2 : s2.isEncrypted = s0.isEncrypted := by rw [f2, he1]
    rw [List.reverse_append, List.reverse_singleton, List.singleton_append]
    cases hm : g.isMulti with
    | false =>
      refine ⟨hr2, he2, by rw [f5 hm]; exact hc1, ?_⟩
      intro index hi
      rw [show startMsg s2 index = startMsg s1 index by unfold startMsg; rw [f5 hm, f2],
        ih1 index hi, openParts, hm]
      simp
    | true =>
      have hgi := isMulti_index g hm
      rw [multi_path env s1 g hr1 hm] at h3
      dsimp only at h3
      have hstart := ih1 g.index hgi.1
      have hopen : ∀ p ∈ openParts g.index gs.reverse, p.index = g.index ∧ p.isLast = false := by
        intro p hp
        have := openParts_mem _ _ _ hp
        exact ⟨this.2.2.1, this.2.2.2⟩
      have hinc := pushAll_incomplete env s0.isEncrypted g.index _ hopen
      rw [← hstart] at hinc
      have hop : ∀ index, openParts index (g :: gs.reverse) =
          if g.index = index ∧ (!g.isLast) = true then openParts index gs.reverse ++ [g] else [] := by
        intro index
        rw [openParts, hm, if_pos rfl]
      cases hl : g.isLast with
      | true =>
        have hidx := pushMulti_last_incomplete env (startMsg s1 g.index) g hl
        have hmsg : s2.message.continuityIndex = 0 := by
          split at h3
          · rw [Option.bind_eq_some_iff] at h3
            obtain ⟨_, _, h3⟩ := h3
            cases h3
            rfl
          · cases h3
            exact hidx
        refine ⟨hr2, he2, by omega, ?_⟩
        intro index hi
        rw [hop, hl, if_neg (by simp), startMsg, hmsg, if_pos (by omega), he2]
        rfl
      | false =>
        have hp := pushMulti_notLast env (startMsg s1 g.index) g hl
        rw [hp, if_neg (by rw [show ({ startMsg s1 g.index with
          continuityIndex := g.index
          parts := (startMsg s1 g.index).parts.set (groupSlot g.y)
            { isReceived := true, data0 := g.y, data1 := g.z } } : Message).isComplete =
            (startMsg s1 g.index).isComplete from rfl, hinc]; decide), ← hp] at h3
        have hmsg : s2.message = (startMsg s1 g.index).pushMulti env g.x g.y g.z := by
          cases h3; rfl
        have hci : s2.message.continuityIndex = g.index := by rw [hmsg, hp]
        refine ⟨hr2, he2, by omega, ?_⟩
        intro index hi
        rw [hop, hl, startMsg, hci]
        by_cases hidx : g.index = index
        · subst hidx
          rw [if_neg (by simp), if_pos (by simp), hmsg, hstart]
          unfold pushAll
          rw [List.foldl_append]
          rfl
        · rw [if_pos (fun hh => hidx hh.symm), if_neg (by simp [hidx]), he2]
          rfl

/-- Own parts are open parts of themselves. -/
theorem openParts_idem (index : Nat) (gs : List UserGroup)
    (h : ∀ g ∈ gs, g.isMulti ∧ g.index = index ∧ g.isLast = false) : openParts index gs.reverse = gs := by
  induction gs using snocInduction with
  | nil => rfl
  | snoc gs g ih =>
    obtain ⟨h1, h2, h3⟩ := h g (by simp)
    rw [List.reverse_append, List.reverse_singleton, List.singleton_append, openParts, if_pos h1,
      if_pos ⟨h2, by simp [h3]⟩, ih (fun g' hg => h g' (by simp [hg]))]

theorem runUser_open_some (env : TmcEnv) (s : TMCService) (hr : s.Ready)
    (h0 : s.message.continuityIndex = 0) (index : Nat) (hi : 1 ≤ index) (gs : List UserGroup)
    (h : ∀ g ∈ gs, g.isMulti ∧ g.index = index ∧ g.isLast = false) :
    ∃ s', s.runUser env gs = some s' ∧ s' = { s with message := s'.message } := by
  induction gs using snocInduction with
  | nil => exact ⟨s, rfl, rfl⟩
  | snoc gs g ih =>
    obtain ⟨s1, h1, h2⟩ := ih (fun g' hg => h g' (by simp [hg]))
    obtain ⟨g1, g2, g3⟩ := h g (by simp)
    obtain ⟨hr1, he1, _, inv⟩ := runUser_inv env gs s s1 hr h0 h1
    have hstart := inv index hi
    rw [openParts_idem index gs (fun g' hg => h g' (by simp [hg]))] at hstart
    have hinc := pushAll_incomplete env s.isEncrypted index gs
      (fun g' hg => ⟨(h g' (by simp [hg])).2.1, (h g' (by simp [hg])).2.2⟩)
    rw [← hstart] at hinc
    rw [runUser_append, h1, Option.bind_some, TMCService.runUser,
      multi_path env s1 g hr1 g1]
    dsimp only
    rw [g2, if_neg (by rw [pushMulti_notLast env _ g g3]; change ¬ (startMsg s1 index).isComplete = true; rw [hinc]; decide)]
    refine ⟨_, rfl, ?_⟩
    rw [h2]

/-- C52: what is printed for a group of a multi-group message depends only on the groups of the same
message: those with its continuity index since the last group with another index or the last
group that ended a message (`openParts`). A service with the same parameters that has received
nothing but these groups prints the same. For every sequence of user groups. -/
theorem C52_own_groups (env : TmcEnv) (s0 s : TMCService) (gs : List UserGroup) (g : UserGroup)
    (hr : s0.Ready) (h0 : s0.message.continuityIndex = 0) (h : s0.runUser env gs = some s)
    (hg : g.isMulti) :
    ∃ s', TMCService.runUser env { s with message := Message.new s.isEncrypted }
        (openParts g.index gs.reverse) = some s' ∧
      (s.receiveUserGroup env g.x g.y g.z).map (·.2) =
        (s'.receiveUserGroup env g.x g.y g.z).map (·.2) := by
  obtain ⟨hr1, he1, _, inv⟩ := runUser_inv env gs s0 s hr h0 h
  have hgi := isMulti_index g hg
  have hopen : ∀ p ∈ openParts g.index gs.reverse, p.isMulti ∧ p.index = g.index ∧ p.isLast = false :=
    fun p hp => (openParts_mem _ _ _ hp).2
  obtain ⟨s', h1, h2⟩ := runUser_open_some env { s with message := Message.new s.isEncrypted } hr1 rfl
    g.index hgi.1 _ hopen
  refine ⟨s', h1, ?_⟩
  obtain ⟨hr', he', _, inv'⟩ := runUser_inv env _ { s with message := Message.new s.isEncrypted } s' hr1
    rfl h1
  have hs : startMsg s g.index = startMsg s' g.index := by
    rw [inv g.index hgi.1, inv' g.index hgi.1, openParts_idem g.index _ hopen, he1]
  rw [multi_path env s g hr1 hg, multi_path env s' g hr' hg, hs]
  have hp : ∀ m, s.printMessage env m = s'.printMessage env m := by
    intro m
    unfold printMessage
    rw [h2]
  dsimp only
  rw [hp]
  split
  · cases s'.printMessage env ((startMsg s' g.index).pushMulti env g.x g.y g.z) <;> rfl
  · rfl

theorem groupSlot_first (g : UserGroup) : groupSlot g.y = 0 ↔ g.isFirst = true := by
  unfold groupSlot
  rw [isFirst_eq]
  cases g.isFirst
  · simp only [Bool.false_eq_true, if_false, iff_false]
    split
    · omega
    · rw [getBits_eq_div]; omega
  · simp

theorem partsAfter_length (gs : List UserGroup) : (partsAfter gs).length = 5 := by
  unfold partsAfter
  induction gs using snocInduction with
  | nil => rfl
  | snoc gs g ih =>
    rw [List.foldl_append, List.foldl_cons, List.foldl_nil, List.length_set]
    exact ih

theorem partsAfter_first (gs : List UserGroup) :
    (partsAfter gs).getD 0 {} =
      match (gs.filter (·.isFirst)).getLast? with
      | some f => { isReceived := true, data0 := f.y, data1 := f.z }
      | none => {} := by
  induction gs using snocInduction with
  | nil => rfl
  | snoc gs g ih =>
    have hl := partsAfter_length gs
    have hstep : partsAfter (gs ++ [g]) =
        (partsAfter gs).set (groupSlot g.y) { isReceived := true, data0 := g.y, data1 := g.z } := by
      unfold partsAfter
      rw [List.foldl_append]
      rfl
    rw [hstep, List.filter_append]
    have hf := groupSlot_first g
    cases hgf : g.isFirst with
    | true =>
      rw [hf.mpr hgf]
      simp only [hgf, List.filter_cons_of_pos, List.filter_nil, List.getLast?_concat]
      rw [List.getD_eq_getElem?_getD, List.getElem?_set]
      simp [hl]
    | false =>
      have hne : groupSlot g.y ≠ 0 := fun hh => by rw [hf.mp hh] at hgf; cases hgf
      rw [List.filter_cons_of_neg (by simp [hgf]), List.filter_nil, List.append_nil, ← ih,
        List.getD_eq_getElem?_getD, List.getElem?_set, if_neg hne, ← List.getD_eq_getElem?_getD]

theorem decodeMulti_incomplete (env : TmcEnv) (m : Message) (h : (m.parts.getD 0 {}).isReceived = false) :
    m.decodeMulti env = m := by
  unfold decodeMulti
  dsimp only
  rw [h]
  rfl

/-- C52: nothing is printed for a group that does not end its message, and nothing is printed if the
first group is missing among the message's own groups. -/
theorem C52_incomplete (env : TmcEnv) (s0 s : TMCService) (gs : List UserGroup) (g : UserGroup)
    (hr : s0.Ready) (h0 : s0.message.continuityIndex = 0) (h : s0.runUser env gs = some s)
    (hg : g.isMulti)
    (hno : g.isLast = false ∨ ∀ p ∈ openParts g.index gs.reverse, p.isFirst = false) :
    (s.receiveUserGroup env g.x g.y g.z).map (·.2) = some [] := by
  obtain ⟨hr1, he1, _, inv⟩ := runUser_inv env gs s0 s hr h0 h
  have hgi := isMulti_index g hg
  have hopen : ∀ p ∈ openParts g.index gs.reverse, p.index = g.index ∧ p.isLast = false :=
    fun p hp => (openParts_mem _ _ _ hp).2.2
  rw [multi_path env s g hr1 hg, inv g.index hgi.1]
  dsimp only
  have hinc := pushAll_incomplete env s0.isEncrypted g.index _ hopen
  cases hl : g.isLast with
  | false =>
    rw [pushMulti_notLast env _ g hl, if_neg (by
      change ¬ (pushAll env (Message.new s0.isEncrypted) (openParts g.index gs.reverse)).isComplete = true
      rw [hinc]; decide)]
    rfl
  | true =>
    have hno' : ∀ p ∈ openParts g.index gs.reverse, p.isFirst = false := by
      rcases hno with hno | hno
      · rw [hl] at hno; cases hno
      · exact hno
    have hgf : g.isFirst = false := by
      unfold UserGroup.isLast at hl
      cases hf : g.isFirst
      · rfl
      · rw [hf] at hl; cases hl
    rw [pushAll_open env s0.isEncrypted g.index _ hopen]
    have hp0 : (partsAfter (openParts g.index gs.reverse ++ [g])).getD 0 {} = {} := by
      rw [partsAfter_first]
      have : ((openParts g.index gs.reverse ++ [g]).filter (·.isFirst)) = [] := by
        rw [List.filter_eq_nil_iff]
        intro p hp
        rcases List.mem_append.mp hp with hp | hp
        · rw [hno' p hp]; decide
        · rw [List.mem_singleton] at hp
          rw [hp, hgf]; decide
      rw [this]
      rfl
    have hstep : partsAfter (openParts g.index gs.reverse ++ [g]) =
        (partsAfter (openParts g.index gs.reverse)).set (groupSlot g.y)
          { isReceived := true, data0 := g.y, data1 := g.z } := by
      unfold partsAfter
      rw [List.foldl_append]
      rfl
    rw [hstep] at hp0
    unfold pushMulti
    dsimp only
    rw [isLast_eq, hl, if_pos rfl, decodeMulti_incomplete _ _ (by
      dsimp only
      rw [hp0])]
    rfl

theorem field_keeps (env : TmcEnv) (m : Message) (f : Nat × Nat) :
    (m.field env f).isComplete = m.isComplete ∧ (m.field env f).location = m.location ∧
    (m.field env f).encryptedLocation = m.encryptedLocation ∧
    (m.field env f).isEncrypted = m.isEncrypted ∧ (m.field env f).wasEncrypted = m.wasEncrypted ∧
    (m.field env f).negative = m.negative ∧ (∃ more, (m.field env f).events = m.events ++ more) := by
  unfold field
  split
  · unfold Message.control
    split <;> exact ⟨rfl, rfl, rfl, rfl, rfl, rfl, [], by simp⟩
  all_goals first
    | exact ⟨rfl, rfl, rfl, rfl, rfl, rfl, _, rfl⟩
    | exact ⟨rfl, rfl, rfl, rfl, rfl, rfl, [], (List.append_nil _).symm⟩
    | (unfold quantifier
       split
       · exact ⟨rfl, rfl, rfl, rfl, rfl, rfl, [], by simp⟩
       · split <;> exact ⟨rfl, rfl, rfl, rfl, rfl, rfl, [], by simp⟩)

theorem fields_keep (env : TmcEnv) (fs : List (Nat × Nat)) (m : Message) :
    (fs.foldl (field env) m).isComplete = m.isComplete ∧
    (fs.foldl (field env) m).location = m.location ∧
    (fs.foldl (field env) m).encryptedLocation = m.encryptedLocation ∧
    (fs.foldl (field env) m).isEncrypted = m.isEncrypted ∧
    (fs.foldl (field env) m).wasEncrypted = m.wasEncrypted ∧
    (fs.foldl (field env) m).negative = m.negative ∧
    (∃ more, (fs.foldl (field env) m).events = m.events ++ more) := by
  induction fs generalizing m with
  | nil => exact ⟨rfl, rfl, rfl, rfl, rfl, rfl, [], by simp⟩
  | cons f fs ih =>
    obtain ⟨a1, a2, a3, a4, a5, a6, b, a7⟩ := field_keeps env m f
    obtain ⟨c1, c2, c3, c4, c5, c6, d, c7⟩ := ih (m.field env f)
    rw [List.foldl_cons]
    exact ⟨c1.trans a1, c2.trans a2, c3.trans a3, c4.trans a4, c5.trans a5, c6.trans a6, b ++ d, by
      rw [c7, a7, List.append_assoc]⟩

/-- C52: a message that ends with this group and whose first group has been received is printed with
the first event code and the location of the latest first group among its own groups (the
location in the clear; for encrypted services see C50). -/
theorem C52_printed (env : TmcEnv) (s0 s : TMCService) (gs : List UserGroup) (g f : UserGroup)
    (hr : s0.Ready) (hne : s0.isEncrypted = false) (h0 : s0.message.continuityIndex = 0)
    (h : s0.runUser env gs = some s) (hg : g.isMulti) (hl : g.isLast)
    (hf : ((openParts g.index gs.reverse).filter (·.isFirst)).getLast? = some f) :
    ∃ s' members rest more,
      s.receiveUserGroup env g.x g.y g.z = some (s', .set ["tmc", "message"] (.obj members) :: rest) ∧
      members.lookup "location" = some (.nat f.z.toNat) ∧
      members.lookup "encrypted_location" = none ∧
      members.lookup "event_codes" = some (.arr ((f.y.toNat % 2048 :: more).map J.nat)) := by
  obtain ⟨hr1, he1, _, inv⟩ := runUser_inv env gs s0 s hr h0 h
  have hgi := isMulti_index g hg
  have hopen : ∀ p ∈ openParts g.index gs.reverse, p.index = g.index ∧ p.isLast = false :=
    fun p hp => (openParts_mem _ _ _ hp).2.2
  rw [multi_path env s g hr1 hg, inv g.index hgi.1, pushAll_open env s0.isEncrypted g.index _ hopen]
  dsimp only
  have hl' : g.isLast = true := hl
  have hgf : g.isFirst = false := by
    unfold UserGroup.isLast at hl'
    cases hf : g.isFirst
    · rfl
    · rw [hf] at hl'; cases hl'
  have hstep : partsAfter (openParts g.index gs.reverse ++ [g]) =
      (partsAfter (openParts g.index gs.reverse)).set (groupSlot g.y)
        { isReceived := true, data0 := g.y, data1 := g.z } := by
    unfold partsAfter
    rw [List.foldl_append]
    rfl
  have hp0 := partsAfter_first (openParts g.index gs.reverse ++ [g])
  rw [List.filter_append, List.filter_cons_of_neg (by simp [hgf]), List.filter_nil, List.append_nil, hf,
    hstep] at hp0
  obtain ⟨parts, hparts⟩ : ∃ parts, (partsAfter (openParts g.index gs.reverse)).set (groupSlot g.y)
        { isReceived := true, data0 := g.y, data1 := g.z } = parts := ⟨_, rfl⟩
  rw [hparts] at hp0
  -- the message
  obtain ⟨m, hm, m1, m2, m3, m4, more, m5⟩ : ∃ m, pushMulti env
      { Message.new s0.isEncrypted with
        continuityIndex := if openParts g.index gs.reverse = [] then 0 else g.index
        parts := partsAfter (openParts g.index gs.reverse) } g.x g.y g.z = m ∧
      m.isComplete = true ∧ m.location = f.z ∧ m.isEncrypted = false ∧ m.wasEncrypted = false ∧
      ∃ more, m.events = (f.y.toNat % 2048) :: more := by
    refine ⟨_, rfl, ?_⟩
    unfold pushMulti
    dsimp only
    rw [isLast_eq, hl', if_pos rfl, hparts]
    unfold decodeMulti
    dsimp only
    rw [hp0]
    dsimp only
    rw [if_neg (by decide), hne]
    have hff := firstGroup_events env false f.y f.z
    have hm0 : ∀ ci, (firstGroup env { Message.new false with continuityIndex := ci, parts := parts } f.y f.z).events =
        [f.y.toNat % 2048] ∧
        (firstGroup env { Message.new false with continuityIndex := ci, parts := parts } f.y f.z).isComplete = true ∧
        (firstGroup env { Message.new false with continuityIndex := ci, parts := parts } f.y f.z).location = f.z ∧
        (firstGroup env { Message.new false with continuityIndex := ci, parts := parts } f.y f.z).isEncrypted = false ∧
        (firstGroup env { Message.new false with continuityIndex := ci, parts := parts } f.y f.z).wasEncrypted = false :=
      fun ci => ⟨hff, rfl, rfl, rfl, rfl⟩
    obtain ⟨q1, q2, q3, q4, q5⟩ := hm0 (getBits 3 g.x 0)
    generalize firstGroup env { Message.new false with continuityIndex := getBits 3 g.x 0, parts := parts } f.y f.z = mm at q1 q2 q3 q4 q5
    split
    · obtain ⟨c1, c2, c3, c4, c5, c6, d, c7⟩ := fields_keep env (getFreeformFields mm.parts) mm
      exact ⟨c1.trans q2, c2.trans q3, c4.trans q4, c5.trans q5, d, by
        change (List.foldl (field env) mm (getFreeformFields mm.parts)).events = _
        rw [c7, q1]; rfl⟩
    · exact ⟨q2, q3, q4, q5, [], q1⟩
  rw [hm, if_pos m1]
  obtain ⟨members, j1, j2, j3, j4, _, _⟩ := json_members env m m1 _ more m5
  unfold printMessage
  rw [he1, hne]
  simp only [Bool.false_eq_true, if_false, Option.pure_def, Option.bind_eq_bind, Option.bind_some, j1]
  rw [m3, m2] at j3
  rw [m4] at j4
  exact ⟨_, members, _, more, rfl, j3, j4, j2⟩

/-! ### C51 -/

/-- What of a message is printed: everything but the bookkeeping of its parts. -/
def Message.erase (m : Message) : Message := { m with parts := [], continuityIndex := 0 }

theorem printMessage_erase (env : TmcEnv) (s : TMCService) (m : Message) :
    s.printMessage env m = s.printMessage env m.erase := by
  have hj : ∀ m : Message, m.json env = m.erase.json env := fun _ => rfl
  unfold printMessage
  split
  · split
    · have hd : ∀ key, m.erase.decrypt key = (m.decrypt key).map Message.erase := by
        intro key
        unfold Message.decrypt
        show (if !m.isEncrypted then _ else _) = _
        split
        · rfl
        · show (if _ then _ else _) = _
          split <;> rfl
      rw [hd]
      rename_i key _
      cases m.decrypt key with
      | none => rfl
      | some m' => rfl
    · rfl
  · rfl

theorem erase_quantifier (env : TmcEnv) (m : Message) (n d : Nat) :
    (m.quantifier env n d).erase = m.erase.quantifier env n d := by
  unfold quantifier
  rw [show m.erase.events = m.events from rfl, show m.erase.quantifiers = m.quantifiers from rfl]
  cases m.events.getLast? with
  | none => rfl
  | some last =>
    dsimp only
    by_cases hc : (m.quantifiers.lookup (m.events.length - 1)).isNone = true ∧
        (env.getEvent last).allowsQuantifier = true ∧
        getQuantifierSize (env.getEvent last).quantifierType = n
    · rw [if_pos hc, if_pos hc]; rfl
    · rw [if_neg hc, if_neg hc]

theorem erase_field (env : TmcEnv) (m : Message) (f : Nat × Nat) :
    (m.field env f).erase = m.erase.field env f := by
  unfold field
  split
  · unfold Message.control
    split <;> rfl
  all_goals first
    | rfl
    | exact erase_quantifier env m _ _

theorem erase_fields (env : TmcEnv) (fs : List (Nat × Nat)) (m : Message) :
    (fs.foldl (field env) m).erase = fs.foldl (field env) m.erase := by
  induction fs generalizing m with
  | nil => rfl
  | cons f fs ih => rw [List.foldl_cons, List.foldl_cons, ih, erase_field]

theorem erase_firstGroup (env : TmcEnv) (m : Message) (y z : Word) :
    (m.firstGroup env y z).erase = m.erase.firstGroup env y z := by
  obtain ⟨e, _⟩ := m
  cases e <;> rfl

theorem chunk_length (n : Nat) (bits : List Bool) (h : bits.length = 28 * n) (j : Nat) (hj : j < n) :
    ((bits.drop (28 * j)).take 28).length = 28 := by
  rw [List.length_take, List.length_drop, h]
  omega

theorem packed_length (capacity : Nat) (fields : List (Nat × Nat))
    (h : (fields.flatMap fieldBits).length ≤ capacity) : (packedFields capacity fields).length = capacity := by
  unfold packedFields
  rw [List.length_append, List.length_replicate]
  omega

/-- Number of bits that this decoder reads from a message with `n` groups after the first one:
with two or three of them it only reads the first 28 bits. -/
def readCapacity (n : Nat) : Nat := if n = 2 ∨ n = 3 then 28 else 28 * n

theorem packed_take (capacity read : Nat) (fields : List (Nat × Nat)) (hr : read ≤ capacity)
    (h : (fields.flatMap fieldBits).length ≤ read) :
    (packedFields capacity fields).take read = packedFields read fields := by
  unfold packedFields
  rw [List.take_append, List.take_of_length_le h, List.take_replicate]
  congr 2
  omega

theorem separate_packed (capacity : Nat) (fields : List (Nat × Nat)) (h : Fits capacity fields) :
    separateFields (packedFields capacity fields).length (packedFields capacity fields) = fields := by
  obtain ⟨h1, h2, h3⟩ := h
  rw [packed_length _ _ h2]
  unfold packedFields
  apply separateFields_packed fields _ _ h1
  · rcases h3 with h3 | h3
    · exact Or.inl h3
    · right; omega
  · omega

/-- The groups of a message after the first one. -/
def subsequentUserGroups (x : Word) (n : Nat) (fields : List (Nat × Nat)) : List UserGroup :=
  (subsequentGroups n fields).map fun g => { x := x, y := g.1, z := g.2 }

/-- A part with the given words. -/
def partOf (g : UserGroup) : MessagePart := { isReceived := true, data0 := g.y, data1 := g.z }

theorem nth_header (n : Nat) (bits : List Bool) (hb : bits.length = 28 * n) (j : Nat) (hj : j < n)
    (hn : n ≤ 4) :
    getBool (nthSubsequent n bits j).1 15 = false ∧
    getBool (nthSubsequent n bits j).1 14 = (j == 0) ∧
    getBits 2 (nthSubsequent n bits j).1 12 = n - 1 - j ∧
    partBits { isReceived := true, data0 := (nthSubsequent n bits j).1,
               data1 := (nthSubsequent n bits j).2 } = (bits.drop (28 * j)).take 28 := by
  have hl := chunk_length n bits hb j hj
  obtain ⟨h1, h2, h3⟩ := subsequent_header (j == 0) (n - 1 - j) _ (by omega) hl
  exact ⟨h1, h2, h3, partBits_subsequent (j == 0) (n - 1 - j) _ hl⟩

theorem nth_slot (n : Nat) (bits : List Bool) (hb : bits.length = 28 * n) (j : Nat) (hj : j < n)
    (hn : n ≤ 4) :
    groupSlot (nthSubsequent n bits j).1 = (if j = 0 then 1 else 4 - (n - 1 - j)) ∧
    isLastGroup (nthSubsequent n bits j).1 = decide (j = n - 1) := by
  obtain ⟨h1, h2, h3, _⟩ := nth_header n bits hb j hj hn
  unfold groupSlot isLastGroup
  rw [h1, h2, h3]
  constructor
  · cases j <;> simp
  · simp only [Bool.not_false, Bool.true_and]
    by_cases h : j = n - 1
    · simp [h]
    · have : n - 1 - j ≠ 0 := by omega
      simp [h, this]

theorem partsAfter_append (gs : List UserGroup) (g : UserGroup) :
    partsAfter (gs ++ [g]) = (partsAfter gs).set (groupSlot g.y) (partOf g) := by
  unfold partsAfter
  rw [List.foldl_append]
  rfl

/-- The freeform fields of the collected parts of a message. -/
theorem freeform_message (n : Nat) (h1 : 1 ≤ n) (h4 : n ≤ 4) (fields : List (Nat × Nat))
    (hf : Fits (readCapacity n) fields) (first : UserGroup) (hfirst : first.isFirst = true) (x : Word) :
    getFreeformFields (partsAfter (first :: subsequentUserGroups x n fields)) = fields ∧
    (partsAfter (first :: subsequentUserGroups x n fields)).getD 0 {} = partOf first ∧
    ((partsAfter (first :: subsequentUserGroups x n fields)).getD 1 {}).isReceived = true := by
  have hcap : readCapacity n ≤ 28 * n := by unfold readCapacity; split <;> omega
  have hb : (packedFields (28 * n) fields).length = 28 * n := packed_length _ _ (by
    have := hf.2.1; omega)
  have hsep := separate_packed _ _ hf
  rw [← packed_take (28 * n) (readCapacity n) fields hcap hf.2.1] at hsep
  have hs0 : groupSlot first.y = 0 := (groupSlot_first first).mpr hfirst
  have hslot := nth_slot n _ hb
  have hhead := nth_header n _ hb
  unfold subsequentUserGroups subsequentGroups
  generalize packedFields (28 * n) fields = bits at hb hsep hslot hhead
  have hset : ∀ (parts : List MessagePart) (j : Nat), j < n →
      parts.set (groupSlot (nthSubsequent n bits j).1)
        { isReceived := true, data0 := (nthSubsequent n bits j).1, data1 := (nthSubsequent n bits j).2 } =
      parts.set (if j = 0 then 1 else 4 - (n - 1 - j))
        { isReceived := true, data0 := (nthSubsequent n bits j).1, data1 := (nthSubsequent n bits j).2 } := by
    intro parts j hj
    rw [(hslot j hj h4).1]
  -- the bits of the parts
  have hbits : ∀ j, j < n →
      partBits { isReceived := true, data0 := (nthSubsequent n bits j).1, data1 := (nthSubsequent n bits j).2 } =
        (bits.drop (28 * j)).take 28 := fun j hj => (hhead j hj h4).2.2.2
  have hgsi : getBits 2 (nthSubsequent n bits 0).1 12 = n - 1 := by
    have := (hhead 0 (by omega) h4).2.2.1
    omega
  -- collect
  have hdef : ∀ gs : List UserGroup, partsAfter gs = gs.foldl (fun parts g => parts.set (groupSlot g.y)
      { isReceived := true, data0 := g.y, data1 := g.z }) [{}, {}, {}, {}, {}] := fun _ => rfl
  rw [hdef]
  rcases (by omega : n = 1 ∨ n = 2 ∨ n = 3 ∨ n = 4) with rfl | rfl | rfl | rfl
  · simp only [List.range_succ_eq_map, List.range_zero, List.map_nil, List.map_cons, List.foldl_cons,
      List.foldl_nil, hs0]
    rw [hset _ 0 (by decide)]
    simp only [if_true, List.set_cons_zero, List.set_cons_succ]
    have hb0 := hbits 0 (by decide)
    refine ⟨?_, rfl, rfl⟩
    unfold getFreeformFields
    simp only [List.getD_cons_succ, List.getD_cons_zero, hgsi]
    simp only [freeformBits, List.drop_succ_cons, List.drop_zero, hb0]
    simp only [readCapacity] at hsep
    simpa using hsep
  · simp only [List.range_succ_eq_map, List.range_zero, List.map_nil, List.map_cons, List.foldl_cons,
      List.foldl_nil, hs0]
    rw [hset _ 0 (by decide), hset _ 1 (by decide)]
    simp only [List.set_cons_zero, List.set_cons_succ, if_true, Nat.reduceSub, if_false,
      Nat.succ_ne_zero]
    have hb0 := hbits 0 (by decide)
    have hb1 := hbits 1 (by decide)
    refine ⟨?_, rfl, rfl⟩
    unfold getFreeformFields
    simp only [List.getD_cons_succ, List.getD_cons_zero, hgsi]
    simp only [freeformBits, List.drop_succ_cons, List.drop_zero, hb0, hb1]
    simp only [readCapacity] at hsep
    simpa using hsep
  · simp only [List.range_succ_eq_map, List.range_zero, List.map_nil, List.map_cons, List.foldl_cons,
      List.foldl_nil, hs0]
    rw [hset _ 0 (by decide), hset _ 1 (by decide), hset _ 2 (by decide)]
    simp only [List.set_cons_zero, List.set_cons_succ, if_true, Nat.reduceSub, if_false,
      Nat.succ_ne_zero]
    have hb0 := hbits 0 (by decide)
    have hb1 := hbits 1 (by decide)
    have hb2 := hbits 2 (by decide)
    refine ⟨?_, rfl, rfl⟩
    unfold getFreeformFields
    simp only [List.getD_cons_succ, List.getD_cons_zero, hgsi]
    simp only [freeformBits, List.drop_succ_cons, List.drop_zero, hb0, hb1, hb2]
    simp only [readCapacity] at hsep
    simpa using hsep
  · simp only [List.range_succ_eq_map, List.range_zero, List.map_nil, List.map_cons, List.foldl_cons,
      List.foldl_nil, hs0]
    rw [hset _ 0 (by decide), hset _ 1 (by decide), hset _ 2 (by decide), hset _ 3 (by decide)]
    simp only [List.set_cons_zero, List.set_cons_succ, if_true, Nat.reduceSub, if_false,
      Nat.succ_ne_zero]
    have hb0 := hbits 0 (by decide)
    have hb1 := hbits 1 (by decide)
    have hb2 := hbits 2 (by decide)
    have hb3 := hbits 3 (by decide)
    refine ⟨?_, rfl, rfl⟩
    unfold getFreeformFields
    simp only [List.getD_cons_succ, List.getD_cons_zero, hgsi]
    simp only [freeformBits, List.drop_succ_cons, List.drop_zero, hb0, hb1, hb2, hb3]
    simp only [readCapacity] at hsep
    have hall : (bits.drop (28 * 0)).take 28 ++ ((bits.drop (28 * 1)).take 28 ++
        ((bits.drop (28 * 2)).take 28 ++ (bits.drop (28 * 3)).take 28)) = bits := by
      have hd : bits.drop (28 * 3) = (bits.drop (28 * 3)).take 28 :=
        (List.take_of_length_le (by rw [List.length_drop]; omega)).symm
      rw [← hd, show bits.drop (28 * 3) = (bits.drop (28 * 2)).drop 28 by rw [List.drop_drop],
        List.take_append_drop, show bits.drop (28 * 2) = (bits.drop (28 * 1)).drop 28 by rw [List.drop_drop],
        List.take_append_drop, show bits.drop (28 * 1) = (bits.drop (28 * 0)).drop 28 by rw [List.drop_drop],
        List.take_append_drop]
      rfl
    rw [List.take_of_length_le (by rw [if_neg (by decide)]; omega)] at hsep
    simp only [List.length_cons, List.length_nil, Bool.not_true, Bool.false_eq_true, if_false,
      List.append_nil, true_or, if_true, Nat.reduceAdd, Nat.reduceSub, Nat.le_refl, or_true, ge_iff_le,
      Nat.reduceLeDiff, hall]
    exact hsep

/-- Everything printed for a sequence of user groups. -/
def TMCService.outputs (env : TmcEnv) (s : TMCService) : List UserGroup → Option (List JOp)
  | [] => some []
  | g :: gs => (s.receiveUserGroup env g.x g.y g.z).bind fun r =>
      (TMCService.outputs env r.1 gs).map (r.2 ++ ·)

theorem outputs_append (env : TmcEnv) (a : List UserGroup) (g : UserGroup) (s s' : TMCService)
    (h : s.runUser env a = some s') (ho : s.outputs env a = some []) :
    s.outputs env (a ++ [g]) = (s'.receiveUserGroup env g.x g.y g.z).map (·.2) := by
  induction a generalizing s with
  | nil =>
    cases h
    rw [List.nil_append, TMCService.outputs]
    cases s'.receiveUserGroup env g.x g.y g.z with
    | none => rfl
    | some r => simp [TMCService.outputs]
  | cons b a ih =>
    rw [TMCService.runUser, Option.bind_eq_some_iff] at h
    obtain ⟨r, h1, h2⟩ := h
    rw [TMCService.outputs, h1, Option.bind_some, Option.map_eq_some_iff] at ho
    obtain ⟨out, h3, h4⟩ := ho
    have h5 := List.append_eq_nil_iff.mp h4
    rw [h5.2] at h3
    rw [List.cons_append, TMCService.outputs, h1, Option.bind_some, ih r.1 h2 h3, h5.1]
    cases s'.receiveUserGroup env g.x g.y g.z <;> rfl

theorem outputs_open (env : TmcEnv) (s : TMCService) (hr : s.Ready)
    (h0 : s.message.continuityIndex = 0) (index : Nat) (hi : 1 ≤ index) (gs : List UserGroup)
    (h : ∀ g ∈ gs, g.isMulti ∧ g.index = index ∧ g.isLast = false) : s.outputs env gs = some [] := by
  induction gs using snocInduction with
  | nil => rfl
  | snoc gs g ih =>
    have hgs : ∀ g ∈ gs, g.isMulti ∧ g.index = index ∧ g.isLast = false := fun g' hg => h g' (by simp [hg])
    obtain ⟨s1, h1, _⟩ := runUser_open_some env s hr h0 index hi gs hgs
    obtain ⟨g1, g2, g3⟩ := h g (by simp)
    rw [outputs_append env gs g s s1 h1 (ih hgs)]
    exact C52_incomplete env s s1 gs g hr h0 h1 g1 (Or.inl g3)

/-- C51 (partial). A broadcaster sends a message of `n + 1` groups (2 to 5) with the given list of
fields. Exactly one message is printed, and it is the one that results from the first group
and these fields, in order. For messages of 2 or 5 groups all field lists that fit are covered. For
messages of 3 or 4 groups (`n = 2, 3`) only lists that fit into the first 28 bits are, because the
decoder does not read the rest: see `C51_violated`. -/
theorem C51_fields_partial (env : TmcEnv) (s : TMCService) (hr : s.Ready)
    (h0 : s.message.continuityIndex = 0) (n : Nat) (h1 : 1 ≤ n) (h4 : n ≤ 4)
    (fields : List (Nat × Nat)) (hf : Fits (readCapacity n) fields) (x y z : Word)
    (hx : 1 ≤ x.toNat % 32 ∧ x.toNat % 32 ≤ 7) (hy : 2 ^ 15 ≤ y.toNat) :
    s.outputs env ({ x := x, y := y, z := z } :: subsequentUserGroups x n fields) =
      s.printMessage env (fields.foldl (Message.field env) ((Message.new s.isEncrypted).firstGroup env y z)) := by
  have hcap : readCapacity n ≤ 28 * n := by unfold readCapacity; split <;> omega
  have hb : (packedFields (28 * n) fields).length = 28 * n := packed_length _ _ (by
    have := hf.2.1; omega)
  have hfirst : UserGroup.isFirst { x := x, y := y, z := z } = true := by
    unfold UserGroup.isFirst
    have := y.isLt
    dsimp only
    rw [show y.toNat / 2 ^ 15 = 1 by omega]
    rfl
  obtain ⟨ff1, ff2, ff3⟩ := freeform_message n h1 h4 fields hf { x := x, y := y, z := z } hfirst x
  obtain ⟨k, rfl⟩ : ∃ k, n = k + 1 := ⟨n - 1, by omega⟩
  -- all but the last group
  obtain ⟨init, hinit⟩ : ∃ init : List UserGroup, init = { x := x, y := y, z := z } ::
    (List.range k).map fun j => ({ x := x
                                   y := (nthSubsequent (k + 1) (packedFields (28 * (k + 1)) fields) j).1
                                   z := (nthSubsequent (k + 1) (packedFields (28 * (k + 1)) fields) j).2 } : UserGroup) :=
    ⟨_, rfl⟩
  obtain ⟨last, hlast⟩ : ∃ last : UserGroup, last =
    { x := x
      y := (nthSubsequent (k + 1) (packedFields (28 * (k + 1)) fields) k).1
      z := (nthSubsequent (k + 1) (packedFields (28 * (k + 1)) fields) k).2 } := ⟨_, rfl⟩
  have hsplit : ({ x := x, y := y, z := z } : UserGroup) :: subsequentUserGroups x (k + 1) fields =
      init ++ [last] := by
    rw [hinit, hlast]
    unfold subsequentUserGroups subsequentGroups
    rw [List.range_succ]
    simp
  have hmulti : ∀ y z, UserGroup.isMulti { x := x, y := y, z := z } = true := by
    intro y z
    unfold UserGroup.isMulti UserGroup.isAdmin
    dsimp only
    rw [show x.toNat / 8 % 4 = 0 by omega]
    have : x.toNat % 32 ≠ 0 := by omega
    simp [this]
  have hindex : ∀ y z, UserGroup.index { x := x, y := y, z := z } = x.toNat % 8 := fun _ _ => rfl
  have hlastflag : ∀ j, j < k + 1 → UserGroup.isLast
      { x := x
        y := (nthSubsequent (k + 1) (packedFields (28 * (k + 1)) fields) j).1
        z := (nthSubsequent (k + 1) (packedFields (28 * (k + 1)) fields) j).2 } = decide (j = k) := by
    intro j hj
    rw [← isLast_eq]
    exact (nth_slot (k + 1) _ hb j hj h4).2
  have hopen : ∀ g ∈ init, g.isMulti ∧ g.index = x.toNat % 8 ∧ g.isLast = false := by
    intro g hg
    rw [hinit, List.mem_cons, List.mem_map] at hg
    rcases hg with rfl | ⟨j, hj, rfl⟩
    · refine ⟨hmulti _ _, rfl, ?_⟩
      unfold UserGroup.isLast
      rw [hfirst]
      rfl
    · rw [List.mem_range] at hj
      refine ⟨hmulti _ _, rfl, ?_⟩
      rw [hlastflag j (by omega)]
      simp; omega
  have hi8 : 1 ≤ x.toNat % 8 := by omega
  have hl : last.isLast = true := by rw [hlast, hlastflag k (by omega)]; simp
  have hlm : last.isMulti = true := by rw [hlast]; exact hmulti _ _
  have hli : last.index = x.toNat % 8 := by rw [hlast]; rfl
  obtain ⟨s1, hs1, hs1'⟩ := runUser_open_some env s hr h0 _ hi8 init hopen
  obtain ⟨hr1, he1, _, inv⟩ := runUser_inv env init s s1 hr h0 hs1
  rw [hsplit] at ff1 ff2 ff3 ⊢
  rw [outputs_append env init last s s1 hs1 (outputs_open env s hr h0 _ hi8 init hopen),
    multi_path env s1 last hr1 hlm, hli, inv _ hi8, openParts_idem _ _ hopen,
    pushAll_open env s.isEncrypted _ init (fun g hg => (hopen g hg).2)]
  rw [partsAfter_append] at ff1 ff2 ff3
  dsimp only
  have hmsg : (pushMulti env { Message.new s.isEncrypted with
      continuityIndex := if init = [] then 0 else x.toNat % 8, parts := partsAfter init } last.x last.y last.z).erase =
      fields.foldl (Message.field env) ((Message.new s.isEncrypted).firstGroup env y z).erase ∧
      (pushMulti env { Message.new s.isEncrypted with
      continuityIndex := if init = [] then 0 else x.toNat % 8, parts := partsAfter init } last.x last.y last.z).isComplete = true := by
    unfold pushMulti
    dsimp only
    rw [isLast_eq, hl, if_pos rfl]
    change _ = _ ∧ (Message.decodeMulti env _).isComplete = true
    have hce : ∀ m : Message, m.clear.erase = m.erase := fun _ => rfl
    rw [hce]
    unfold decodeMulti
    dsimp only
    have hset : (partsAfter init).set (groupSlot last.y) { isReceived := true, data0 := last.y, data1 := last.z } =
        (partsAfter init).set (groupSlot last.y) (partOf last) := rfl
    rw [hset, ff2]
    have hrec : (partOf { x := x, y := y, z := z }).isReceived = true := rfl
    have hn : ¬ (!(partOf { x := x, y := y, z := z }).isReceived) = true := by rw [hrec]; decide
    rw [if_neg hn]
    have hp : ∀ m : Message, (m.firstGroup env y z).parts = m.parts := by
      intro m
      obtain ⟨e, _⟩ := m
      cases e <;> rfl
    have hc : ∀ m : Message, (m.firstGroup env y z).isComplete = true := fun _ => rfl
    change (if (List.getD (firstGroup env _ y z).parts 1 {}).isReceived = true then
        List.foldl (field env) (firstGroup env _ y z) (getFreeformFields (firstGroup env _ y z).parts)
        else firstGroup env _ y z).erase = _ ∧
      (if (List.getD (firstGroup env _ y z).parts 1 {}).isReceived = true then
        List.foldl (field env) (firstGroup env _ y z) (getFreeformFields (firstGroup env _ y z).parts)
        else firstGroup env _ y z).isComplete = true
    rw [hp]
    dsimp only
    rw [if_pos ff3, ff1]
    constructor
    · rw [erase_fields, erase_firstGroup, erase_firstGroup]
      rfl
    · rw [(fields_keep env fields _).1, hc]
  rw [if_pos hmsg.2]
  rw [printMessage_erase, hmsg.1, ← erase_fields, ← printMessage_erase]
  have hpm : ∀ m, s1.printMessage env m = s.printMessage env m := by
    intro m
    unfold printMessage
    rw [hs1']
  rw [hpm]
  cases s.printMessage env (fields.foldl (Message.field env) ((Message.new s.isEncrypted).firstGroup env y z)) <;> rfl

/-- An environment with empty tables. -/
def TmcEnv.empty : TmcEnv where
  ucs2 := fun _ => none
  events := fun _ => none
  supplementary := fun _ => none
  serviceKey := fun _ => none
  locations := fun _ => { ltn := 0, points := fun _ => none, roads := fun _ => none }

/-- Number of diversion routes in a printed message. -/
def routes : Option (List JOp) → Nat
  | some (.set _ (.obj members) :: _) =>
    match members.lookup "diversion_route" with
    | some (.arr l) => l.length
    | _ => 0
  | _ => 0

/-- The negation of C51 for messages of three groups: two diversion routes (label 10, 16 bits each)
and a stop time fit into the 56 bits, but only the first diversion route is printed. -/
theorem C51_violated :
    ∃ (s : TMCService) (fields : List (Nat × Nat)) (x y z : Word),
      s.Ready ∧ s.message.continuityIndex = 0 ∧ Fits (28 * 2) fields ∧
      (1 ≤ x.toNat % 32 ∧ x.toNat % 32 ≤ 7) ∧ 2 ^ 15 ≤ y.toNat ∧
      s.outputs TmcEnv.empty ({ x := x, y := y, z := z } :: subsequentUserGroups x 2 fields) ≠
        s.printMessage TmcEnv.empty
          (fields.foldl (Message.field TmcEnv.empty) ((Message.new s.isEncrypted).firstGroup TmcEnv.empty y z)) := by
  refine ⟨{ isInitialized := true }, [(10, 1000), (10, 2000), (8, 50)], 1, 0x8001, 77, ?_, rfl, ?_, ?_, ?_, ?_⟩
  · exact ⟨rfl, by intro h; cases h⟩
  · refine ⟨?_, ?_, Or.inl ?_⟩
    · intro f hf
      simp only [List.mem_cons, List.not_mem_nil, or_false] at hf
      rcases hf with rfl | rfl | rfl <;> (unfold ValidField; decide)
    · decide
    · decide
  · decide
  · decide
  · intro h
    have h' := congrArg routes h
    revert h'
    decide +kernel


/-- Number of event codes in a printed message. -/
def eventCount : Option (List JOp) → Nat
  | some (.set _ (.obj members) :: _) =>
    match members.lookup "event_codes" with
    | some (.arr l) => l.length
    | _ => 0
  | _ => 0

-- five groups: two more events, a separator, stop and start time, two diversion routes, a control code
example :
    let fields := [(9, 300), (9, 301), (14, 0), (8, 50), (7, 3), (10, 40001), (10, 40002), (1, 2)]
    (∀ f ∈ fields, f.1 ≤ 14 ∧ f.2 < 2 ^ labelSize f.1 ∧ f ≠ (0, 0)) ∧
    (fields.flatMap fieldBits).length = 105 ∧ readCapacity 4 = 112 ∧
    routes (TMCService.outputs TmcEnv.empty { isInitialized := true }
      ({ x := 5, y := 0xC123, z := 77 } :: subsequentUserGroups 5 4 fields)) = 2 ∧
    eventCount (TMCService.outputs TmcEnv.empty { isInitialized := true }
      ({ x := 5, y := 0xC123, z := 77 } :: subsequentUserGroups 5 4 fields)) = 3 := by
  decide +kernel

-- a message with index 2 interrupted by one with index 3; the interrupted one is not printed,
-- and a single-group message in between does not disturb
example :
    let first (i : Word) : UserGroup := { x := i, y := 0x8001, z := 77 }
    let last (i : Word) : UserGroup := { x := i, y := 0x4000, z := 0 }
    let single : UserGroup := { x := 8, y := 5, z := 6 }
    openParts 3 [single, first 3, first 2] = [first 3] ∧ openParts 2 [single, first 3, first 2] = [] ∧
    (last 3).isLast ∧ (last 3).isMulti ∧ (first 3).isFirst ∧ ¬ single.isMulti ∧
    ((TMCService.runUser TmcEnv.empty { isInitialized := true } [first 2, first 3, single]).bind fun s =>
      (s.receiveUserGroup TmcEnv.empty 3 0x4000 0).map (·.2.length)) = some 1 ∧
    ((TMCService.runUser TmcEnv.empty { isInitialized := true } [first 2, first 3, single]).bind fun s =>
      (s.receiveUserGroup TmcEnv.empty 2 0x4000 0).map (·.2.length)) = some 0 := by
  decide +kernel

-- a single-group message: event 101, extent 3, negative direction, location 5000
example : (8 : Word).toNat / 8 % 4 = 1 ∧ (0x5865 : Word).toNat % 2048 = 101 ∧
    (0x5865 : Word).toNat / 2048 % 8 = 3 ∧ (0x5865 : Word).toNat / 2 ^ 14 % 2 = 1 ∧
    eventCount ((TMCService.receiveUserGroup TmcEnv.empty { isInitialized := true } 8 0x5865 5000).map (·.2)) = 1 := by
  decide +kernel

end Redsea
