import Verif.Lemmas.Tmc
import Verif.Props.TmcBasic

/-
C50 (output), C51, C52, C53: TMC messages.
-/

namespace Redsea

open TMCService Message

/-! ### C53: single-group messages -/

theorem single_path (env : TmcEnv) (s : TMCService) (x y z : Word) (hi : s.isInitialized)
    (he : s.isEncrypted = true → s.hasEncid = true) (hx : x.toNat / 8 % 4 = 1) :
    s.receiveUserGroup env x y z =
      (s.printMessage env ((Message.new s.isEncrypted).pushSingle env y z)).bind
        fun out => some (s, out) := by
  unfold receiveUserGroup
  have h0 : getBits 5 x 0 ≠ 0 := by rw [getBits_eq_div]; omega
  have h4 : getBool x 4 = false := by
    rw [getBool_eq_div, show x.toNat / 2 ^ 4 % 2 = 0 by omega]; rfl
  have h3 : getBool x 3 = true := by
    rw [getBool_eq_div, show x.toNat / 2 ^ 3 % 2 = 1 by omega]; rfl
  have hee : (s.isEncrypted && !s.hasEncid) = false := by
    cases h : s.isEncrypted
    · rfl
    · rw [he h]; rfl
  simp only [hi, h0, h4, h3, hee]
  simp

/-- Members of a single-group message; `enc` says whether the location was encrypted, `location` is
the location, if known. -/
def SingleMembers (env : TmcEnv) (y z : Word) (enc : Bool) (location : Option Word)
    (members : List (String × J)) : Prop :=
  members.lookup "event_codes" = some (.arr [.nat (y.toNat % 2048)]) ∧
  members.lookup "location" = location.map (fun l => .nat l.toNat) ∧
  members.lookup "encrypted_location" = (if enc then some (.nat z.toNat) else none) ∧
  members.lookup "direction" =
    some (.str (ascii (if (env.getEvent (y.toNat % 2048)).both then "both" else "single"))) ∧
  members.lookup "extent" =
    some (.str (ascii (if y.toNat / 2 ^ 14 % 2 = 1 then "-" else "+") ++ decimal (y.toNat / 2048 % 8)))

theorem firstGroup_events (env : TmcEnv) (e : Bool) (y z : Word) :
    ((Message.new e).firstGroup env y z).events = [y.toNat % 2048] := by
  have h := getBits_eq_div 11 y 0
  rw [Nat.pow_zero, Nat.div_one] at h
  cases e <;> (unfold firstGroup; simp [Message.new, h])

theorem single_members (env : TmcEnv) (m : Message) (y z : Word)
    (hev : m.events = [y.toNat % 2048]) (hc : m.isComplete = true)
    (hb : m.both = (env.getEvent (y.toNat % 2048)).both) (hn : m.negative = getBool y 14)
    (hx : m.extent = getBits 3 y 11) (hl : m.wasEncrypted = true → m.encryptedLocation = z) :
    ∃ members, m.json env = some members ∧
      SingleMembers env y z m.wasEncrypted (if m.isEncrypted then none else some m.location) members := by
  obtain ⟨members, h1, h2, h3, h4, h5, h6⟩ := json_members env m hc _ [] hev
  have hext : m.extentString =
      (ascii (if y.toNat / 2 ^ 14 % 2 = 1 then "-" else "+") ++ decimal (y.toNat / 2048 % 8)) := by
    unfold Message.extentString
    rw [hn, hx, getBits_eq_div, getBool_eq_div]
    by_cases h : y.toNat / 2 ^ 14 % 2 = 1
    · rw [if_pos h]; simp [h]
    · rw [if_neg h]; simp [h]
  refine ⟨members, h1, h2, ?_, ?_, ?_, ?_⟩
  · rw [h3]; cases m.isEncrypted <;> rfl
  · rw [h4]
    cases hw : m.wasEncrypted
    · rfl
    · rw [hl hw]
  · rw [h6, hb]; split <;> rfl
  · rw [h5, hext]

theorem pushSingle_members (env : TmcEnv) (y z : Word) :
    ∃ members, ((Message.new false).pushSingle env y z).json env = some members ∧
      SingleMembers env y z false (some z) members := by
  have := single_members env ((Message.new false).pushSingle env y z) y z
    (firstGroup_events env false y z) rfl
    (by simp [pushSingle, firstGroup, Message.new, getBits_eq_div]) rfl rfl (by
      intro h; cases h)
  exact this

/-- C53: a single-group message of an unencrypted service is printed with the event code, location,
direction and extent of the group, and nothing printed for the location touches these members.
For every group and every state of the service. -/
theorem C53_single (env : TmcEnv) (s : TMCService) (x y z : Word) (hi : s.isInitialized)
    (he : s.isEncrypted = false) (hx : x.toNat / 8 % 4 = 1) :
    ∃ members rest,
      s.receiveUserGroup env x y z = some (s, .set ["tmc", "message"] (.obj members) :: rest) ∧
      SingleMembers env y z false (some z) members ∧
      rest = decodeLocation (env.locations s.ltn) s.ltn (some z)
        (if y.toNat / 2 ^ 14 % 2 = 1 then -((y.toNat / 2048 % 8 : Nat) : Int)
          else (y.toNat / 2048 % 8 : Nat)) := by
  rw [single_path env s x y z hi (by rw [he]; intro h; cases h) hx]
  unfold printMessage
  rw [he]
  obtain ⟨members, h1, h2⟩ := pushSingle_members env y z
  simp only [Bool.false_eq_true, if_false, Option.pure_def, Option.bind_eq_bind, Option.bind_some, h1]
  refine ⟨members, _, rfl, h2, ?_⟩
  have e1 : ((Message.new false).pushSingle env y z).location = z := rfl
  have e2 : ((Message.new false).pushSingle env y z).isEncrypted = false := rfl
  have e3 : ((Message.new false).pushSingle env y z).negative = getBool y 14 := rfl
  have e4 : ((Message.new false).pushSingle env y z).extent = getBits 3 y 11 := rfl
  rw [e1, e2, e3, e4, getBits_eq_div, getBool_eq_div]
  simp

/-- C53: before a system group has initialised the service nothing at all is printed. -/
theorem C53_uninitialized (env : TmcEnv) (s : TMCService) (x y z : Word) (h : s.isInitialized = false) :
    s.receiveUserGroup env x y z = some (s, []) := by
  unfold receiveUserGroup
  simp [h]

/-- C53: in an encrypted service messages are ignored until the encryption administration group
has been received. -/
theorem C53_before_encid (env : TmcEnv) (s : TMCService) (x y z : Word) (he : s.isEncrypted = true)
    (hn : s.hasEncid = false) (h0 : x.toNat % 32 ≠ 0) (h4 : x.toNat / 16 % 2 = 0) :
    s.receiveUserGroup env x y z = some (s, []) := by
  unfold receiveUserGroup
  have h0' : getBits 5 x 0 ≠ 0 := by rw [getBits_eq_div]; omega
  have h4' : getBool x 4 = false := by
    rw [getBool_eq_div, show x.toNat / 2 ^ 4 % 2 = 0 by omega]; rfl
  simp only [h0', h4', he, hn]
  simp

/-- One group. -/
def TMCService.receive (env : TmcEnv) (s : TMCService) : TmcGroup → Option (TMCService × List JOp)
  | .system w => s.receiveSystemGroup w
  | .user g => s.receiveUserGroup env g.x g.y g.z

/-- State after a sequence of groups. -/
def TMCService.run (env : TmcEnv) (s : TMCService) : List TmcGroup → Option TMCService
  | [] => some s
  | g :: gs => (s.receive env g).bind fun r => TMCService.run env r.1 gs

theorem tuning_fields (env : TmcEnv) (s s' : TMCService) (x y z : Word) (out : List JOp)
    (h : s.tuningInformation env x y z = some (s', out)) :
    s'.isInitialized = s.isInitialized ∧ s'.isEncrypted = s.isEncrypted ∧
    s'.hasEncid = s.hasEncid ∧ s'.message = s.message ∧ s'.encid = s.encid ∧ s'.ltn = s.ltn := by
  unfold tuningInformation at h
  dsimp only at h
  split at h
  · simp only [Option.bind_eq_bind, Option.bind_eq_some_iff, Option.pure_def, Option.some.injEq] at h
    obtain ⟨_, _, _, _, _, _, h⟩ := h
    cases h
    exact ⟨rfl, rfl, rfl, rfl, rfl, rfl⟩
  · split at h <;> (cases h; exact ⟨rfl, rfl, rfl, rfl, rfl, rfl⟩)
  · cases h; exact ⟨rfl, rfl, rfl, rfl, rfl, rfl⟩
  · split at h <;> (cases h; exact ⟨rfl, rfl, rfl, rfl, rfl, rfl⟩)

theorem user_fields (env : TmcEnv) (s s' : TMCService) (g : UserGroup) (out : List JOp)
    (h : s.receiveUserGroup env g.x g.y g.z = some (s', out)) :
    s'.isInitialized = s.isInitialized ∧ s'.isEncrypted = s.isEncrypted ∧
    (s.hasEncid = true → s'.hasEncid = true) ∧
    (g.isAdmin = false → s'.hasEncid = s.hasEncid ∧ s'.encid = s.encid ∧ s'.ltn = s.ltn) ∧
    (g.isMulti = false → s'.message = s.message) := by
  unfold receiveUserGroup at h
  dsimp only at h
  have hadm : g.isAdmin = decide (getBits 5 g.x 0 = 0) := by
    unfold UserGroup.isAdmin
    rw [getBits_eq_div, Nat.pow_zero, Nat.div_one]
    rfl
  split at h
  · cases h
    exact ⟨rfl, rfl, id, fun _ => ⟨rfl, rfl, rfl⟩, fun _ => rfl⟩
  · split at h
    · rename_i h0
      cases h
      refine ⟨rfl, rfl, fun _ => rfl, fun hh => ?_, fun _ => rfl⟩
      rw [hadm, h0] at hh
      simp at hh
    · split at h
      · obtain ⟨h1, h2, h3, h4, h5, h6⟩ := tuning_fields env s s' g.x g.y g.z out h
        exact ⟨h1, h2, fun hh => by rw [h3, hh], fun _ => ⟨h3, h5, h6⟩, fun _ => h4⟩
      · split at h
        · cases h
          exact ⟨rfl, rfl, id, fun _ => ⟨rfl, rfl, rfl⟩, fun _ => rfl⟩
        · split at h
          · simp only [Option.bind_eq_bind, Option.bind_eq_some_iff, Option.pure_def,
              Option.some.injEq] at h
            obtain ⟨_, _, h⟩ := h
            cases h
            exact ⟨rfl, rfl, id, fun _ => ⟨rfl, rfl, rfl⟩, fun _ => rfl⟩
          · rename_i hn0 hn4 _ hn3
            have hm : g.isMulti = true := by
              unfold UserGroup.isMulti
              rw [hadm, decide_eq_false hn0]
              rw [getBool_eq_div] at hn4 hn3
              have a4 : g.x.toNat / 2 ^ 4 % 2 ≠ 1 := by simpa using hn4
              have a3 : g.x.toNat / 2 ^ 3 % 2 ≠ 1 := by simpa using hn3
              have : g.x.toNat / 8 % 4 = 0 := by omega
              rw [this]; rfl
            have hnm : g.isMulti = false → s'.message = s.message := by
              intro hh; rw [hm] at hh; cases hh
            generalize (if getBits 3 g.x 0 ≠ s.message.continuityIndex then Message.new s.isEncrypted
              else s.message) = m at h
            split at h
            · simp only [Option.bind_eq_bind, Option.bind_eq_some_iff, Option.pure_def,
                Option.some.injEq] at h
              obtain ⟨_, _, h⟩ := h
              cases h
              exact ⟨rfl, rfl, id, fun _ => ⟨rfl, rfl, rfl⟩, hnm⟩
            · cases h
              exact ⟨rfl, rfl, id, fun _ => ⟨rfl, rfl, rfl⟩, hnm⟩

theorem system_fields (s s' : TMCService) (w : Word) (out : List JOp)
    (h : s.receiveSystemGroup w = some (s', out)) (hv : (TmcGroup.system w).isVariant0 = false) :
    s'.isInitialized = s.isInitialized ∧ s'.isEncrypted = s.isEncrypted ∧ s'.hasEncid = s.hasEncid := by
  unfold receiveSystemGroup at h
  dsimp only at h
  split at h
  · rename_i h0
    rw [getBits_eq_div] at h0
    have := w.isLt
    change (w.toNat / 2 ^ 14 == 0) = false at hv
    have hz : w.toNat / 2 ^ 14 = 0 := by omega
    rw [hz] at hv
    cases hv
  · simp only [Option.bind_eq_bind, Option.bind_eq_some_iff, Option.pure_def, Option.some.injEq] at h
    obtain ⟨_, _, h⟩ := h
    cases h
    exact ⟨rfl, rfl, rfl⟩
  · split at h
    · split at h
      · simp only [Option.bind_eq_bind, Option.bind_eq_some_iff, Option.pure_def,
          Option.some.injEq] at h
        obtain ⟨_, _, h⟩ := h
        cases h
        exact ⟨rfl, rfl, rfl⟩
      · cases h; exact ⟨rfl, rfl, rfl⟩
    · cases h; exact ⟨rfl, rfl, rfl⟩
  · cases h; exact ⟨rfl, rfl, rfl⟩

theorem run_uninit (env : TmcEnv) (gs : List TmcGroup) (s s' : TMCService)
    (h : s.run env gs = some s') (hv : ∀ g ∈ gs, g.isVariant0 = false) :
    s'.isInitialized = s.isInitialized ∧ s'.isEncrypted = s.isEncrypted := by
  induction gs generalizing s with
  | nil => cases h; exact ⟨rfl, rfl⟩
  | cons g gs ih =>
    unfold TMCService.run at h
    rw [Option.bind_eq_some_iff] at h
    obtain ⟨⟨s1, out⟩, h1, h2⟩ := h
    have := ih s1 h2 (fun g' hg => hv g' (by simp [hg]))
    rw [this.1, this.2]
    cases g with
    | system w =>
      have := system_fields s s1 w out h1 (hv _ (by simp))
      exact ⟨this.1, this.2.1⟩
    | user u =>
      have := user_fields env s s1 u out h1
      exact ⟨this.1, this.2.1⟩

theorem run_hasEncid (env : TmcEnv) (gs : List TmcGroup) (s s' : TMCService)
    (h : s.run env gs = some s') (hv : ∀ g ∈ gs, g.isAdmin = false) : s'.hasEncid = s.hasEncid := by
  induction gs generalizing s with
  | nil => cases h; rfl
  | cons g gs ih =>
    unfold TMCService.run at h
    rw [Option.bind_eq_some_iff] at h
    obtain ⟨⟨s1, out⟩, h1, h2⟩ := h
    rw [ih s1 h2 (fun g' hg => hv g' (by simp [hg]))]
    cases g with
    | system w =>
      have h1' : s.receiveSystemGroup w = some (s1, out) := h1
      unfold receiveSystemGroup at h1'
      dsimp only at h1'
      split at h1'
      · cases h1'; rfl
      · simp only [Option.bind_eq_bind, Option.bind_eq_some_iff, Option.pure_def,
          Option.some.injEq] at h1'
        obtain ⟨_, _, h⟩ := h1'
        cases h; rfl
      · split at h1'
        · split at h1'
          · simp only [Option.bind_eq_bind, Option.bind_eq_some_iff, Option.pure_def,
              Option.some.injEq] at h1'
            obtain ⟨_, _, h⟩ := h1'
            cases h; rfl
          · cases h1'; rfl
        · cases h1'; rfl
      · cases h1'; rfl
    | user u => exact ((user_fields env s s1 u out h1).2.2.2.1 (hv (.user u) (by simp))).1

/-- C53: in every history of a service that contains no system group of variant 0 user groups print
nothing. -/
theorem C53_history_uninitialized (env : TmcEnv) (gs : List TmcGroup) (s : TMCService) (g : UserGroup)
    (h : TMCService.run env {} gs = some s) (hv : ∀ g ∈ gs, g.isVariant0 = false) :
    s.receive env (.user g) = some (s, []) :=
  C53_uninitialized env s g.x g.y g.z (run_uninit env gs {} s h hv).1

/-- C53: in every history in which the last system group of variant 0 announced encryption (no
location table) and that contains no encryption administration group, messages print nothing. -/
theorem C53_history_before_encid (env : TmcEnv) (gs later : List TmcGroup) (w : Word) (s : TMCService)
    (g : UserGroup) (h : TMCService.run env {} (gs ++ .system w :: later) = some s)
    (hw : w.toNat / 2 ^ 6 % 2 ^ 10 = 0) (hv : ∀ g ∈ later, g.isVariant0 = false)
    (ha : ∀ g ∈ gs ++ .system w :: later, g.isAdmin = false)
    (hg : g.isAdmin = false) (ht : g.isTuning = false) :
    s.receive env (.user g) = some (s, []) := by
  have hrun_app : ∀ (l1 l2 : List TmcGroup) (t : TMCService),
      t.run env (l1 ++ l2) = (t.run env l1).bind fun t' => t'.run env l2 := by
    intro l1 l2
    induction l1 with
    | nil => intro t; rfl
    | cons a l1 ih =>
      intro t
      rw [List.cons_append, TMCService.run, TMCService.run, Option.bind_assoc]
      congr 1
      funext r
      exact ih r.1
  have hne := run_hasEncid env _ {} s h ha
  rw [hrun_app, Option.bind_eq_some_iff] at h
  obtain ⟨s1, _, h2⟩ := h
  rw [TMCService.run, Option.bind_eq_some_iff] at h2
  obtain ⟨⟨s2, out⟩, h3, h4⟩ := h2
  have henc := (run_uninit env later s2 s h4 hv).2
  have hw0 : getBits 2 w 14 = 0 := by rw [getBits_eq_div]; have := w.isLt; omega
  have hw6 : getBits 6 w 6 = 0 := by rw [getBits_eq_div]; omega
  have he2 : s2.isEncrypted = true := by
    have h3' : s1.receiveSystemGroup w = some (s2, out) := h3
    unfold receiveSystemGroup at h3'
    rw [hw0] at h3'
    dsimp only at h3'
    rw [hw6] at h3'
    simp only [Option.some.injEq, Prod.mk.injEq] at h3'
    rw [← h3'.1]
    rfl
  refine C53_before_encid env s g.x g.y g.z (by rw [henc, he2]) (by rw [hne]) ?_ ?_
  · intro hz
    unfold UserGroup.isAdmin at hg
    rw [hz] at hg
    cases hg
  · unfold UserGroup.isTuning at ht
    have : g.x.toNat / 16 % 2 < 2 := Nat.mod_lt _ (by decide)
    rcases (by omega : g.x.toNat / 16 % 2 = 0 ∨ g.x.toNat / 16 % 2 = 1) with h | h
    · exact h
    · rw [h] at ht; cases ht

/-! ### C50: output of decrypted messages -/

/-- C50: in an encrypted service whose key is known, a single-group message with an encrypted
location is printed with the location that was encrypted. For every location, key with shift at most
24, event and state of the service. -/
theorem C50_printed (env : TmcEnv) (s : TMCService) (x y location : Word) (key : ServiceKey)
    (hi : s.isInitialized) (he : s.isEncrypted) (hid : s.hasEncid) (hk : env.serviceKey s.encid = some key)
    (hs : key.xorstart.toNat ≤ 24) (hx : x.toNat / 8 % 4 = 1) :
    ∃ members rest,
      s.receiveUserGroup env x y
        (encryptLocation location key.xorval.toNat key.xorstart.toNat key.nrot.toNat) =
          some (s, .set ["tmc", "message"] (.obj members) :: rest) ∧
      SingleMembers env y (encryptLocation location key.xorval.toNat key.xorstart.toNat key.nrot.toNat)
        true (some location) members := by
  rw [single_path env s x y _ hi (fun _ => hid) hx]
  generalize hz : encryptLocation location key.xorval.toNat key.xorstart.toNat key.nrot.toNat = z
  have he' : s.isEncrypted = true := he
  unfold printMessage
  rw [he']
  have hdec := C50_decrypt ((Message.new true).pushSingle env y z) key location rfl hs (by
    rw [hz]; rfl)
  obtain ⟨m', h1, h2, h3, h4⟩ := hdec
  simp only [if_true, hk, Option.bind_eq_bind, h1, Option.bind_some]
  have hm' : m' = { (Message.new true).pushSingle env y z with location := location, isEncrypted := false } := by
    unfold Message.decrypt at h1
    have hte : ((Message.new true).pushSingle env y z).isEncrypted = true := rfl
    rw [hte, if_neg (by decide)] at h1
    split at h1
    · have h1' := Option.some.inj h1
      have hl : rotl16 (((Message.new true).pushSingle env y z).encryptedLocation ^^^
        BitVec.ofNat 16 (key.xorval.toNat * 2 ^ key.xorstart.toNat)) (key.nrot.setWidth 32) = location := by
        rw [← h2, ← h1']
      rw [hl] at h1'
      exact h1'.symm
    · cases h1
  obtain ⟨members, h5, h6⟩ := single_members env m' y z
    (by rw [hm']; exact firstGroup_events env true y z) (by rw [hm']; rfl)
    (by rw [hm']; simp [pushSingle, firstGroup, Message.new, getBits_eq_div])
    (by rw [hm']; rfl) (by rw [hm']; rfl)
    (by intro _; rw [hm']; rfl)
  rw [h5]
  rw [h3, h2, show m'.wasEncrypted = true by rw [hm']; rfl] at h6
  exact ⟨members, _, rfl, h6⟩

/-- C50: without the key no location is printed. -/
theorem C50_no_key (env : TmcEnv) (s : TMCService) (x y z : Word)
    (hi : s.isInitialized) (he : s.isEncrypted) (hid : s.hasEncid) (hk : env.serviceKey s.encid = none)
    (hx : x.toNat / 8 % 4 = 1) :
    ∃ members, s.receiveUserGroup env x y z = some (s, [.set ["tmc", "message"] (.obj members)]) ∧
      SingleMembers env y z true none members := by
  rw [single_path env s x y z hi (fun _ => hid) hx]
  have he' : s.isEncrypted = true := he
  unfold printMessage
  rw [he']
  simp only [if_true, hk, Option.bind_eq_bind, Option.bind_some]
  obtain ⟨members, h5, h6⟩ := single_members env ((Message.new true).pushSingle env y z) y z
    (firstGroup_events env true y z) rfl
    (by simp [pushSingle, firstGroup, Message.new, getBits_eq_div]) rfl rfl (fun _ => rfl)
  rw [h5]
  refine ⟨members, ?_, h6⟩
  have hd : decodeLocation (env.locations s.ltn) s.ltn none
      (if ((Message.new true).pushSingle env y z).negative = true
        then -(((Message.new true).pushSingle env y z).extent : Int)
        else ((Message.new true).pushSingle env y z).extent) = [] :=
    C54_unknown _ _ _ _ (Or.inr (Or.inr (by simp)))
  have hi' : ((Message.new true).pushSingle env y z).isEncrypted = true := rfl
  simp only [hi', if_true, Option.pure_def, Option.bind_some, Option.some.injEq, Prod.mk.injEq,
    true_and]
  exact congrArg (fun t => JOp.set ["tmc", "message"] (.obj members) :: t) hd

end Redsea
