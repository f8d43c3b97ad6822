import Verif.Spec.Nacc
/-!
# C41: system information of a neighbour cell
-/

namespace Verif.Nacc

/-! ## Containers -/

def cellOf (k : Key) : Nat × Nat := (k.arfcn, k.bsic)

def tyOf (v : Si) : Nat := if v.psi then 1 else 0

/-- Octets in the first `i` containers if all are full. -/
def full (i : Nat) : Nat := if i = 0 then 0 else 16 + 18 * (i - 1)

/-- The first containers have been sent. -/
def Pre (c : Ctx) (got : List Container) : Prop :=
  c.sent = full c.idx ∧ c.sent ≤ c.si.octets.length ∧
  (c.si.octets.length ≤ 573 → ∀ cs, assembleFrom (tyOf c.si) (cellOf c.key) 0 (got ++ cs) =
    (assembleFrom (tyOf c.si) (cellOf c.key) c.idx cs).map (c.si.octets.take c.sent ++ ·))

/-- All containers have been sent. -/
def Whole (k : Key) (v : Si) (got : List Container) : Prop :=
  v.octets.length ≤ 573 → assemble (tyOf v) (cellOf k) got = some v.octets

theorem pre_start {c : Ctx} (h1 : c.sent = 0) (h2 : c.idx = 0) : Pre c [] := by
  refine ⟨by rw [h1, h2]; rfl, by rw [h1]; exact Nat.zero_le _, fun _ cs => ?_⟩
  rw [h1, h2, List.nil_append]
  cases assembleFrom (tyOf c.si) (cellOf c.key) 0 cs <;> simp

theorem idx_lt {c : Ctx} (h1 : c.sent = full c.idx) (h2 : c.sent ≤ c.si.octets.length) (h3 : c.si.octets.length ≤ 573) :
    c.idx < 32 := by
  unfold full at h1
  split at h1 <;> omega

/-- Reading of a full container. -/
theorem payload_full (t i : Nat) (id : Option (Nat × Nat)) (d : List Nat) (n : Nat) (h : d.length = n) :
    Container.payload ⟨i, id, (t * 32 + 31) :: (d ++ List.replicate (n - d.length) 0)⟩ = some (t, d, true) := by
  unfold Container.payload
  dsimp only
  rw [if_pos (by omega), h, Nat.sub_self, List.replicate_zero, List.append_nil, show (t * 32 + 31) / 32 = t by omega]

/-- Reading of the last container. -/
theorem payload_last (t i : Nat) (id : Option (Nat × Nat)) (d : List Nat) (n : Nat) (h : d.length ≤ 18) :
    Container.payload ⟨i, id, (t * 32 + d.length) :: (d ++ List.replicate n 0)⟩ = some (t, d, false) := by
  unfold Container.payload
  dsimp only
  rw [show (t * 32 + d.length) % 32 = d.length by omega, show (t * 32 + d.length) / 32 = t by omega]
  rw [if_neg (by omega), if_pos (by rw [List.length_append]; omega), List.take_left']
  rfl

/-- The length of a container. -/
def maxLen (c : Ctx) : Nat := if c.idx = 0 then 16 else 18

def idOf (c : Ctx) : Option (Nat × Nat) := if c.idx = 0 then some (cellOf c.key) else none

theorem create_full {c : Ctx} (h : c.si.octets.length - c.sent ≥ maxLen c) :
    create c = (⟨c.idx % 32, idOf c, (tyOf c.si * 32 + 31) :: ((c.si.octets.drop c.sent).take (maxLen c) ++
      List.replicate (maxLen c - ((c.si.octets.drop c.sent).take (maxLen c)).length) 0)⟩, false,
      { c with sent := c.sent + ((c.si.octets.drop c.sent).take (maxLen c)).length, idx := c.idx + 1 }) := by
  have hm : 0 < maxLen c := by unfold maxLen; split <;> decide
  unfold create
  dsimp only
  rw [if_neg (show ¬ c.si.octets.length - c.sent = 0 by omega), if_pos (show c.si.octets.length - c.sent ≥ if c.idx = 0 then 16 else 18 from h)]
  rfl

theorem create_last {c : Ctx} (h : c.si.octets.length - c.sent < maxLen c) :
    create c = (⟨c.idx % 32, idOf c, (tyOf c.si * 32 + (c.si.octets.drop c.sent).length) :: (c.si.octets.drop c.sent ++
      List.replicate (maxLen c - (c.si.octets.drop c.sent).length) 0)⟩, true,
      { c with sent := c.sent + (c.si.octets.drop c.sent).length, idx := c.idx + 1 }) := by
  have hm : maxLen c ≤ 18 := by unfold maxLen; split <;> decide
  have hl := List.length_drop (i := c.sent) (l := c.si.octets)
  unfold create
  dsimp only
  by_cases h0 : c.si.octets.length - c.sent = 0
  · have hd : c.si.octets.drop c.sent = [] := List.eq_nil_of_length_eq_zero (by omega)
    rw [if_pos h0, hd]
    rfl
  · rw [if_neg h0, if_neg (show ¬ c.si.octets.length - c.sent ≥ if c.idx = 0 then 16 else 18 from Nat.not_le.2 h)]
    dsimp only
    rw [← hl, List.take_length, Nat.mod_eq_of_lt (show (c.si.octets.drop c.sent).length < 32 by omega)]
    rfl

/-- One more container. -/
theorem create_spec {c : Ctx} {got : List Container} (h : Pre c got) :
    (create c).2.2.key = c.key ∧ (create c).2.2.present = c.present ∧ (create c).2.2.st = c.st ∧ (create c).2.2.cgi = c.cgi ∧
    (create c).2.2.si = c.si ∧
    ((create c).2.1 = true → Whole c.key c.si (got ++ [(create c).1])) ∧
    ((create c).2.1 = false → Pre (create c).2.2 (got ++ [(create c).1]) ∧ c.sent < (create c).2.2.sent) ∧
    (c.idx = 0 → (create c).1.id = some (cellOf c.key)) := by
  obtain ⟨h1, h2, h3⟩ := h
  have hl := List.length_drop (i := c.sent) (l := c.si.octets)
  have hm : maxLen c ≤ 18 := by unfold maxLen; split <;> decide
  have hm' : 0 < maxLen c := by unfold maxLen; split <;> decide
  have hid : ∀ i, i = c.idx → idOf c = if i = 0 then some (cellOf c.key) else none := fun i e => by rw [e]; rfl
  by_cases hf : c.si.octets.length - c.sent ≥ maxLen c
  · rw [create_full hf]
    have ht : ((c.si.octets.drop c.sent).take (maxLen c)).length = maxLen c := by rw [List.length_take]; omega
    refine ⟨rfl, rfl, rfl, rfl, rfl, nofun, fun _ => ⟨⟨?_, ?_, ?_⟩, ?_⟩, ?_⟩
    · show c.sent + _ = full (c.idx + 1)
      rw [ht, h1]
      unfold full maxLen
      rw [if_neg (Nat.succ_ne_zero _)]
      by_cases e : c.idx = 0
      · rw [if_pos e, if_pos e, e]
      · rw [if_neg e, if_neg e]
        omega
    · show c.sent + _ ≤ c.si.octets.length
      omega
    · intro h573 cs
      have hi := idx_lt h1 h2 h573
      rw [List.append_assoc, h3 h573]
      rw [List.singleton_append, assembleFrom]
      rw [if_neg (by rw [Nat.mod_eq_of_lt hi, hid _ rfl]; simp), payload_full _ _ _ _ _ ht]
      dsimp only
      rw [if_neg (by simp), if_pos rfl, Option.map_map]
      have e : c.si.octets.take (c.sent + ((c.si.octets.drop c.sent).take (maxLen c)).length) =
          c.si.octets.take c.sent ++ (c.si.octets.drop c.sent).take (maxLen c) := by
        rw [ht, List.take_add]
      congr 1
      funext l
      show c.si.octets.take c.sent ++ (_ ++ l) = c.si.octets.take (c.sent + _) ++ l
      rw [e, List.append_assoc]
    · show c.sent < c.sent + _
      omega
    · intro e
      show idOf c = _
      rw [hid _ rfl, if_pos e]
  · rw [create_last (Nat.lt_of_not_le hf)]
    refine ⟨rfl, rfl, rfl, rfl, rfl, fun _ h573 => ?_, nofun, ?_⟩
    · have hi := idx_lt h1 h2 h573
      unfold assemble
      rw [h3 h573, assembleFrom]
      rw [if_neg (by rw [Nat.mod_eq_of_lt hi, hid _ rfl]; simp), payload_last _ _ _ _ _ (by omega)]
      dsimp only
      rw [if_neg (by simp), if_neg (by decide), if_pos rfl, Option.map_some, List.take_append_drop]
    · intro e
      show idOf c = _
      rw [hid _ rfl, if_pos e]

/-! ## Histories -/

/-- What holds in a state. -/
def Phase (es : List Ev) (c : Ctx) (got : List Container) : Prop :=
  match c.st with
  | .initial => False
  | .resolve => got = []
  | .requestSi => got = [] ∧ Address es c.key c.cgi
  | .data => Address es c.key c.cgi ∧ Info es c.cgi c.si ∧ Pre c got
  | .cont | .waitAck => (got = [] ∧ Failed es) ∨ ∃ g v, Address es c.key g ∧ Info es g v ∧ got ≠ [] ∧ Whole c.key v got

theorem Address.cons {es : List Ev} {k : Key} {g : Cgi} (e : Ev) : Address es k g → Address (e :: es) k g :=
  fun ⟨x, h, r⟩ => ⟨x, List.mem_cons_of_mem _ h, r⟩

theorem Info.cons {es : List Ev} {g : Cgi} {v : Si} (e : Ev) : Info es g v → Info (e :: es) g v :=
  fun ⟨x, h, r⟩ => ⟨x, List.mem_cons_of_mem _ h, r⟩

theorem Failed.cons {es : List Ev} (e : Ev) : Failed es → Failed (e :: es) :=
  fun ⟨x, h, r⟩ => ⟨x, List.mem_cons_of_mem _ h, r⟩

theorem Phase.cons {es : List Ev} {c : Ctx} {got : List Container} (e : Ev) (h : Phase es c got) : Phase (e :: es) c got := by
  unfold Phase at *
  cases hs : c.st <;> rw [hs] at h <;> dsimp only at h ⊢
  · exact h
  · exact ⟨h.1, h.2.cons e⟩
  · exact ⟨h.1.cons e, h.2.1.cons e, h.2.2⟩
  · rcases h with h | ⟨g, v, h1, h2, h3⟩
    · exact .inl ⟨h.1, h.2.cons e⟩
    · exact .inr ⟨g, v, h1.cons e, h2.cons e, h3⟩
  · rcases h with h | ⟨g, v, h1, h2, h3⟩
    · exact .inl ⟨h.1, h.2.cons e⟩
    · exact .inr ⟨g, v, h1.cons e, h2.cons e, h3⟩

/-- Only questions to the network. -/
def Asks (o : List Out) : Prop := ∀ x ∈ o, (∃ k, x = .askAddress k) ∨ ∃ g, x = .askSi g

theorem asks_receive : ∀ {o : List Out} (m : Mob), Asks o → o.foldl Mob.receive m = m
  | [], _, _ => rfl
  | x :: o, m, h => by
    have h2 := asks_receive (o := o) m fun y hy => h y (List.mem_cons_of_mem _ hy)
    rw [List.foldl_cons]
    rcases h x (List.mem_cons_self ..) with ⟨k, e⟩ | ⟨g, e⟩ <;> subst e <;> exact h2

theorem asks_nil : Asks [] := fun _ h => absurd h List.not_mem_nil

theorem enterSi_spec {es : List Ev} {w : World} {c : Ctx} (e : Ev) (hw : e.world = some w) (hst : c.st = .resolve)
    (ha : Address (e :: es) c.key c.cgi) (hl : NoLocal (e :: es)) :
    Phase (e :: es) (enterSi w c).1 [] ∧ (enterSi w c).1.key = c.key ∧ (enterSi w c).1.present = c.present ∧
      Asks (enterSi w c).2 := by
  have hf : w.cells.find? (·.1 = c.cgi) = none := by
    rw [List.find?_eq_none]
    intro x hx
    have := hl e (List.mem_cons_self ..) w hw _ _ ha x hx
    simp [this]
  unfold enterSi
  rw [hst]
  dsimp only
  rw [if_neg (by decide), hf]
  dsimp only
  cases hs : w.sis c.cgi with
  | some v =>
    dsimp only [enterData, allowed]
    refine ⟨?_, rfl, rfl, asks_nil⟩
    show Address _ _ _ ∧ Info _ _ _ ∧ Pre _ _
    exact ⟨ha, ⟨e, List.mem_cons_self .., .inl ⟨w, hw, hs⟩⟩, pre_start rfl rfl⟩
  | none =>
    dsimp only
    by_cases hr : w.rimOk = true
    · rw [if_pos hr]
      refine ⟨?_, rfl, rfl, ?_⟩
      · exact ⟨rfl, ha⟩
      · intro x hx
        rw [List.mem_singleton] at hx
        exact .inr ⟨_, hx⟩
    · rw [if_neg hr]
      refine ⟨?_, rfl, rfl, asks_nil⟩
      exact .inl ⟨rfl, e, List.mem_cons_self .., .inl ⟨w, hw, .inr (Bool.eq_false_iff.2 hr)⟩⟩

theorem enterResolve_spec {es : List Ev} {w : World} {c : Ctx} (e : Ev) (hw : e.world = some w) (hst : allowed c.st .resolve = true)
    (hl : NoLocal (e :: es)) :
    Phase (e :: es) (enterResolve w c).1 [] ∧ (enterResolve w c).1.key = c.key ∧
      (enterResolve w c).1.present = c.present ∧ Asks (enterResolve w c).2 := by
  unfold enterResolve
  rw [hst]
  dsimp only
  rw [if_neg (by decide)]
  cases hs : w.neigh c.key with
  | some g =>
    dsimp only
    exact enterSi_spec e hw rfl ⟨e, List.mem_cons_self .., .inl ⟨w, hw, hs⟩⟩ hl
  | none =>
    dsimp only
    by_cases hr : w.reqOk = true
    · rw [if_pos hr]
      refine ⟨rfl, rfl, rfl, ?_⟩
      intro x hx
      rw [List.mem_singleton] at hx
      exact .inl ⟨_, hx⟩
    · rw [if_neg hr]
      refine ⟨?_, rfl, rfl, asks_nil⟩
      exact .inl ⟨rfl, e, List.mem_cons_self .., .inl ⟨w, hw, .inl (Bool.eq_false_iff.2 hr)⟩⟩

/-- What holds after a history. -/
def Inv (lac ci : Nat) (es : List Ev) (x : Option Ctx) (m : Mob) : Prop :=
  match x with
  | none => m = {}
  | some c => c.present = true ∧ (c.key.lac = lac ∧ c.key.ci = ci) ∧ m.asked = some (some (cellOf c.key)) ∧ Phase es c m.got

theorem NoLocal.mono {es es' : List Ev} (h : NoLocal es) (hs : ∀ e ∈ es', e ∈ es) : NoLocal es' :=
  fun x hx w hw k g ⟨y, hy, hh⟩ => h x (hs x hx) w hw k g ⟨y, hs y hy, hh⟩

theorem inv_start {lac ci : Nat} {es : List Ev} {w : World} {n : Notif} {c : Ctx} {m : Mob} {a b : Nat}
    (hn : n = .gsm a b) (hst : allowed c.st .resolve = true) (hm : m.asked ≠ some (some (a, b)))
    (hl : NoLocal (.notify w n :: es)) :
    Inv lac ci [.notify w n] (some (enterResolve w { c with key := ⟨lac, ci, a, b⟩, present := true }).1)
      (m.see (.notify w n) (enterResolve w { c with key := ⟨lac, ci, a, b⟩, present := true }).2) ∧
    m.asked ≠ (m.see (.notify w n) (enterResolve w { c with key := ⟨lac, ci, a, b⟩, present := true }).2).asked := by
  obtain ⟨h1, h2, h3, h4⟩ := enterResolve_spec (es := []) (w := w)
    (c := { c with key := ⟨lac, ci, a, b⟩, present := true }) (.notify w n) rfl hst (hl.mono (by simp))
  unfold Mob.see
  rw [asks_receive _ h4]
  dsimp only
  unfold Mob.ask
  rw [hn, Notif.cell, if_neg hm, ← hn]
  refine ⟨⟨h3, ?_, ?_, h1⟩, hm⟩
  · rw [h2]; exact ⟨rfl, rfl⟩
  · rw [h2]; rfl

/-- The events that matter are those since the mobile asked for another cell. -/
def Next (lac ci : Nat) (es : List Ev) (x : Option Ctx) (m : Mob) (e : Ev) (x' : Option Ctx) (m' : Mob) : Prop :=
  (Inv lac ci (e :: es) x' m' ∧ (x' ≠ none → x ≠ none ∧ m.asked = m'.asked)) ∨ (Inv lac ci [e] x' m' ∧ m.asked ≠ m'.asked)

theorem inv_notify {lac ci : Nat} {es : List Ev} {x : Option Ctx} {m : Mob} {w : World} {n : Notif}
    (h : Inv lac ci es x m) (hg : OnlyGsm (.notify w n :: es)) (hl : NoLocal (.notify w n :: es)) :
    Next lac ci es x m (.notify w n) (step lac ci x (.notify w n)).1 (m.see (.notify w n) (step lac ci x (.notify w n)).2) := by
  obtain ⟨a, b, hn⟩ : ∃ a b, n = .gsm a b := by
    have := hg _ (List.mem_cons_self ..) w n rfl
    cases n with
    | gsm a b => exact ⟨a, b, rfl⟩
    | otherRat => exact absurd rfl this
    | bad => exact absurd rfl this
  have hf : fillKey lac ci n = some (some ⟨lac, ci, a, b⟩) := by rw [hn]; rfl
  show Next _ _ _ _ _ _ (notify lac ci w x n).1 (m.see _ (notify lac ci w x n).2)
  cases x with
  | none =>
    have hx : notify lac ci w none n =
        (some (enterResolve w { ({} : Ctx) with key := ⟨lac, ci, a, b⟩, present := true }).1,
          (enterResolve w { ({} : Ctx) with key := ⟨lac, ci, a, b⟩, present := true }).2) := by
      unfold notify
      dsimp only [Option.getD]
      rw [if_pos rfl, hf]
    rw [hx]
    have h' : m = {} := h
    refine .inr (inv_start hn rfl ?_ hl)
    rw [h']
    exact nofun
  | some c =>
    obtain ⟨hp, hk, ha, hph⟩ := h
    have hne : c.st ≠ .initial := by
      intro e
      unfold Phase at hph
      rw [e] at hph
      exact hph
    by_cases e : c.key = ⟨lac, ci, a, b⟩
    · have hx : notify lac ci w (some c) n = (some c, []) := by
        unfold notify
        dsimp only [Option.getD]
        rw [if_neg hne]
        unfold retrans
        rw [hf]
        dsimp only
        rw [if_neg (by simp [e])]
      rw [hx]
      have hm : m.see (.notify w n) [] = m := by
        show m.ask n.cell = m
        unfold Mob.ask
        rw [if_pos (by rw [ha, hn, e]; rfl)]
      dsimp only
      rw [hm]
      exact .inl ⟨⟨hp, hk, ha, hph.cons _⟩, fun _ => ⟨nofun, rfl⟩⟩
    · have hx : notify lac ci w (some c) n =
          (some (enterResolve w { c with key := ⟨lac, ci, a, b⟩, present := true }).1,
            (enterResolve w { c with key := ⟨lac, ci, a, b⟩, present := true }).2) := by
        unfold notify
        dsimp only [Option.getD]
        rw [if_neg hne]
        unfold retrans
        rw [hf]
        dsimp only
        rw [if_pos e]
      rw [hx]
      refine .inr (inv_start hn ?_ ?_ hl)
      · cases hs : c.st <;> first | rfl | exact absurd hs hne
      · intro e'
        rw [ha] at e'
        have e2 := Option.some.inj (Option.some.inj e')
        apply e
        have hk1 := hk.1
        have hk2 := hk.2
        have e3 := (Prod.mk.inj e2).1
        have e4 := (Prod.mk.inj e2).2
        cases hc : c.key
        rw [hc] at hk1 hk2 e3 e4
        dsimp only at hk1 hk2 e3 e4
        rw [hk1, hk2, e3, e4]

theorem OnlyGsm.tail {e : Ev} {es : List Ev} (h : OnlyGsm (e :: es)) : OnlyGsm es :=
  fun x hx => h x (List.mem_cons_of_mem _ hx)

theorem NoLocal.tail {e : Ev} {es : List Ev} (h : NoLocal (e :: es)) : NoLocal es :=
  fun x hx w hw k g ha => h x (List.mem_cons_of_mem _ hx) w hw k g (ha.cons e)

theorem inv_other {lac ci : Nat} {es : List Ev} {x : Option Ctx} {m : Mob} (e : Ev) (h : Inv lac ci es x m)
    (hn : ∀ w n, e ≠ .notify w n) (hl : NoLocal (e :: es)) :
    Inv lac ci (e :: es) (step lac ci x e).1 (m.see e (step lac ci x e).2) := by
  cases e with
  | notify w n => exact absurd rfl (hn w n)
  | addr w k r =>
    cases x with
    | none => exact h
    | some c =>
      obtain ⟨hp, hk, ha, hph⟩ := h
      show Inv _ _ _ (some (addr w c k r).1) ((addr w c k r).2.foldl Mob.receive m)
      by_cases hc : c.st = .resolve ∧ c.key = k
      · have hgot : m.got = [] := by unfold Phase at hph; rw [hc.1] at hph; exact hph
        cases r with
        | some g =>
          have hx : addr w c k (some g) = enterSi w { c with cgi := g } := by unfold addr; rw [if_pos hc]
          rw [hx]
          obtain ⟨h1, h2, h3, h4⟩ := enterSi_spec (es := es) (w := w) (c := { c with cgi := g }) (.addr w k (some g)) rfl hc.1
            ⟨_, List.mem_cons_self .., .inr ⟨w, by rw [← hc.2]⟩⟩ hl
          rw [asks_receive _ h4]
          refine ⟨h3.trans hp, ?_, ?_, ?_⟩
          · rw [h2]; exact hk
          · rw [h2]; exact ha
          · rw [hgot]; exact h1
        | none =>
          have hx : addr w c k none = ({ c with st := .cont }, []) := by
            unfold addr; rw [if_pos hc]; unfold goto; rw [hc.1]; rfl
          rw [hx]
          exact ⟨hp, hk, ha, .inl ⟨hgot, _, List.mem_cons_self .., .inr (.inl ⟨_, _, rfl⟩)⟩⟩
      · have hx : addr w c k r = (c, []) := by unfold addr; rw [if_neg hc]
        rw [hx]
        exact ⟨hp, hk, ha, hph.cons _⟩
  | si g v =>
    cases x with
    | none => exact h
    | some c =>
      obtain ⟨hp, hk, ha, hph⟩ := h
      show Inv _ _ _ (some (rxSi c g v)) m
      by_cases hc : c.st = .requestSi ∧ c.cgi = g
      · have hx : rxSi c g v = { c with si := v, st := .data, sent := 0, idx := 0 } := by
          unfold rxSi; rw [if_pos hc]; unfold enterData; rw [hc.1]; rfl
        unfold Phase at hph
        rw [hc.1] at hph
        rw [hx]
        refine ⟨hp, hk, ha, ?_⟩
        rw [hph.1]
        show Address _ _ _ ∧ Info _ _ _ ∧ Pre _ _
        exact ⟨hph.2.cons _, ⟨_, List.mem_cons_self .., .inr (by rw [hc.2])⟩, pre_start rfl rfl⟩
      · have hx : rxSi c g v = c := by unfold rxSi; rw [if_neg hc]
        rw [hx]
        exact ⟨hp, hk, ha, hph.cons _⟩
  | rts p =>
    cases x with
    | none => exact h
    | some c =>
      obtain ⟨hp, hk, ha, hph⟩ := h
      show Inv _ _ _ (some (rts c p).1) ((rts c p).2.foldl Mob.receive m)
      have same : rts c p = (c, []) → Inv lac ci (.rts p :: es) (some (rts c p).1) ((rts c p).2.foldl Mob.receive m) := by
        intro hx
        rw [hx]
        exact ⟨hp, hk, ha, hph.cons _⟩
      cases hs : c.st with
      | initial => exact same (by unfold rts; rw [hs])
      | resolve => exact same (by unfold rts; rw [hs])
      | requestSi => exact same (by unfold rts; rw [hs])
      | waitAck => exact same (by unfold rts; rw [hs])
      | cont =>
        cases p with
        | none => exact same (by unfold rts; rw [hs])
        | some q =>
          have hx : rts c (some q) = ({ c with poll := q, st := .waitAck }, [.cont (some (cellOf c.key))]) := by
            unfold rts; rw [hs]; dsimp only; unfold goto; rw [hp]; dsimp only; rfl
          rw [hx]
          refine ⟨hp, hk, ha, ?_⟩
          have := hph.cons (.rts (some q))
          unfold Phase at this
          rw [hs] at this
          exact this
      | data =>
        have hx : rts c p = (if (create c).2.1 then goto (create c).2.2 .cont else (create c).2.2, [.data (create c).1]) := by
          unfold rts; rw [hs]
        unfold Phase at hph
        rw [hs] at hph
        obtain ⟨h1, h2, h3⟩ := hph
        obtain ⟨c1, c2, c3, c4, c5, c6, c7, _⟩ := create_spec h3
        rw [hx]
        show Inv _ _ _ (some (if _ then _ else _)) { m with got := m.got ++ [(create c).1] }
        by_cases hd : (create c).2.1 = true
        · rw [if_pos hd]
          have hgo : goto (create c).2.2 .cont = { (create c).2.2 with st := .cont } := by
            unfold goto; rw [c3, hs]; rfl
          rw [hgo]
          refine ⟨c2.trans hp, ?_, ?_, ?_⟩
          · show (create c).2.2.key.lac = _ ∧ _; rw [c1]; exact hk
          · show _ = some (some (cellOf (create c).2.2.key)); rw [c1]; exact ha
          · refine .inr ⟨c.cgi, c.si, ?_, h2.cons _, by simp, ?_⟩
            · show Address _ (create c).2.2.key _; rw [c1]; exact h1.cons _
            · show Whole (create c).2.2.key _ _; rw [c1]; exact c6 hd
        · rw [if_neg hd]
          refine ⟨c2.trans hp, ?_, ?_, ?_⟩
          · rw [c1]; exact hk
          · rw [c1]; exact ha
          · unfold Phase
            rw [c3, hs]
            dsimp only
            rw [c1, c4, c5]
            exact ⟨h1.cons _, h2.cons _, (c7 (Bool.eq_false_iff.2 hd)).1⟩
  | ack p =>
    cases x with
    | none => exact h
    | some c =>
      by_cases hc : c.st = .waitAck ∧ c.poll = p
      · have hx : step lac ci (some c) (.ack p) = (none, [.done]) := by
          show (if c.st = .waitAck ∧ c.poll = p then (none, [Out.done]) else (some c, [])) = _
          rw [if_pos hc]
        rw [hx]
        rfl
      · have hx : step lac ci (some c) (.ack p) = (some c, []) := by
          show (if c.st = .waitAck ∧ c.poll = p then (none, [Out.done]) else (some c, [])) = _
          rw [if_neg hc]
        rw [hx]
        exact ⟨h.1, h.2.1, h.2.2.1, h.2.2.2.cons _⟩
  | noAck p =>
    cases x with
    | none => exact h
    | some c =>
      by_cases hc : c.st = .waitAck ∧ c.poll = p
      · have hx : step lac ci (some c) (.noAck p) = (some { c with st := .cont }, []) := by
          show (if c.st = .waitAck ∧ c.poll = p then (some (goto c .cont), []) else (some c, [])) = _
          rw [if_pos hc]; unfold goto; rw [hc.1]; rfl
        rw [hx]
        have := h.2.2.2.cons (.noAck p)
        unfold Phase at this
        rw [hc.1] at this
        exact ⟨h.1, h.2.1, h.2.2.1, this⟩
      · have hx : step lac ci (some c) (.noAck p) = (some c, []) := by
          show (if c.st = .waitAck ∧ c.poll = p then (some (goto c .cont), []) else (some c, [])) = _
          rw [if_neg hc]
        rw [hx]
        exact ⟨h.1, h.2.1, h.2.2.1, h.2.2.2.cons _⟩
  | timer =>
    cases x with
    | none => exact h
    | some c =>
      by_cases hc : c.st = .resolve ∨ c.st = .requestSi
      · have hx : step lac ci (some c) .timer = (some { c with st := .cont }, []) := by
          show (if c.st = .resolve ∨ c.st = .requestSi then (some (goto c .cont), []) else (some c, [])) = _
          rw [if_pos hc]; unfold goto; rcases hc with hc | hc <;> rw [hc] <;> rfl
        rw [hx]
        have hgot : m.got = [] := by
          have := h.2.2.2
          unfold Phase at this
          rcases hc with hc | hc <;> rw [hc] at this
          · exact this
          · exact this.1
        exact ⟨h.1, h.2.1, h.2.2.1, .inl ⟨hgot, _, List.mem_cons_self .., .inr (.inr rfl)⟩⟩
      · have hx : step lac ci (some c) .timer = (some c, []) := by
          show (if c.st = .resolve ∨ c.st = .requestSi then (some (goto c .cont), []) else (some c, [])) = _
          rw [if_neg hc]
        rw [hx]
        exact ⟨h.1, h.2.1, h.2.2.1, h.2.2.2.cons _⟩

theorem hist_play {lac ci : Nat} : ∀ (es : List Ev) {hs : List Ev} {x : Option Ctx} {m : Mob}, Hist lac ci hs x m →
    Hist lac ci (es.reverse ++ hs) (play lac ci x m es).1 (play lac ci x m es).2
  | [], _, _, _, h => h
  | e :: es, hs, x, m, h => by
    have := hist_play es (Hist.step e h)
    rw [List.reverse_cons, List.append_assoc]
    exact this

/-! ## Where messages come from -/

theorem enterSi_asks (w : World) (c : Ctx) : Asks (enterSi w c).2 := by
  unfold enterSi
  by_cases h : (!allowed c.st .requestSi) = true
  · rw [if_pos h]; exact asks_nil
  · rw [if_neg h]
    dsimp only
    cases w.cells.find? (·.1 = c.cgi) with
    | some y => exact asks_nil
    | none =>
      dsimp only
      cases w.sis c.cgi with
      | some v => exact asks_nil
      | none =>
        dsimp only
        split
        · intro x hx
          rw [List.mem_singleton] at hx
          exact .inr ⟨_, hx⟩
        · exact asks_nil

theorem enterResolve_asks (w : World) (c : Ctx) : Asks (enterResolve w c).2 := by
  unfold enterResolve
  by_cases h : (!allowed c.st .resolve) = true
  · rw [if_pos h]; exact asks_nil
  · rw [if_neg h]
    dsimp only
    cases w.neigh c.key with
    | some y => exact enterSi_asks w _
    | none =>
      dsimp only
      split
      · intro x hx
        rw [List.mem_singleton] at hx
        exact .inl ⟨_, hx⟩
      · exact asks_nil

theorem retrans_asks (lac ci : Nat) (w : World) (c : Ctx) (n : Notif) : Asks (retrans lac ci w c n).2 := by
  unfold retrans
  cases fillKey lac ci n with
  | none => exact asks_nil
  | some k =>
    cases k with
    | none => exact asks_nil
    | some k =>
      dsimp only
      split
      · exact enterResolve_asks _ _
      · exact asks_nil

theorem notify_asks (lac ci : Nat) (w : World) (x : Option Ctx) (n : Notif) : Asks (notify lac ci w x n).2 := by
  unfold notify
  dsimp only
  by_cases h : (x.getD {}).st = .initial
  · rw [if_pos h]
    cases fillKey lac ci n with
    | none => exact asks_nil
    | some k =>
      cases k with
      | none => exact asks_nil
      | some k => exact enterResolve_asks _ _
  · rw [if_neg h]
    exact retrans_asks _ _ _ _ _

theorem addr_asks (w : World) (c : Ctx) (k : Key) (r : Option Cgi) : Asks (addr w c k r).2 := by
  unfold addr
  split
  · cases r with
    | some g => exact enterSi_asks _ _
    | none => exact asks_nil
  · exact asks_nil

/-- Only blocks for the mobile carry messages to it. -/
theorem asked_receive {o : List Out} (m : Mob) (h : Out.done ∉ o) : (o.foldl Mob.receive m).asked = m.asked := by
  induction o generalizing m with
  | nil => rfl
  | cons x o ih =>
    rw [List.foldl_cons, ih _ fun h' => h (List.mem_cons_of_mem _ h')]
    cases x with
    | done => exact absurd List.mem_cons_self h
    | _ => rfl

theorem asks_done {o : List Out} (h : Asks o) : Out.done ∉ o := by
  intro h'
  rcases h _ h' with ⟨_, h⟩ | ⟨_, h⟩ <;> cases h

theorem inv_step {lac ci : Nat} {es : List Ev} {x : Option Ctx} {m : Mob} (e : Ev) (h : Inv lac ci es x m)
    (hg : OnlyGsm (e :: es)) (hl : NoLocal (e :: es)) :
    Next lac ci es x m e (step lac ci x e).1 (m.see e (step lac ci x e).2) := by
  by_cases hn : ∃ w n, e = .notify w n
  · obtain ⟨w, n, rfl⟩ := hn
    exact inv_notify h hg hl
  · have hn' : ∀ w n, e ≠ .notify w n := fun w n he => hn ⟨w, n, he⟩
    refine .inl ⟨inv_other e h hn' hl, ?_⟩
    intro hx
    cases x with
    | none =>
      exfalso
      cases e with
      | notify w n => exact hn' w n rfl
      | _ => exact hx rfl
    | some c =>
      refine ⟨nofun, ?_⟩
      cases e with
      | notify w n => exact absurd rfl (hn' w n)
      | addr w k r => exact (asked_receive m (asks_done (addr_asks w c k r))).symm
      | si g v => rfl
      | rts p =>
        refine (asked_receive m ?_).symm
        show _ ∉ (rts c p).2
        unfold rts
        cases c.st <;> (try exact List.not_mem_nil)
        · simp
        · cases p <;> simp
      | ack p =>
        by_cases hc : c.st = .waitAck ∧ c.poll = p
        · refine absurd ?_ hx
          show (if c.st = .waitAck ∧ c.poll = p then (none, [Out.done]) else (some c, [])).1 = none
          rw [if_pos hc]
        · have h2 : step lac ci (some c) (.ack p) = (some c, []) := by
            show (if c.st = .waitAck ∧ c.poll = p then (none, [Out.done]) else (some c, [])) = _
            rw [if_neg hc]
          rw [h2]
          rfl
      | noAck p =>
        refine (asked_receive m ?_).symm
        show _ ∉ (if c.st = .waitAck ∧ c.poll = p then (some (goto c .cont), []) else (some c, [])).2
        split <;> exact List.not_mem_nil
      | timer =>
        refine (asked_receive m ?_).symm
        show _ ∉ (if c.st = .resolve ∨ c.st = .requestSi then (some (goto c .cont), []) else (some c, [])).2
        split <;> exact List.not_mem_nil

theorem inv_hist {lac ci : Nat} {es : List Ev} {x : Option Ctx} {m : Mob} (h : Hist lac ci es x m) :
    OnlyGsm es → NoLocal es → ∃ cur es', es = cur ++ es' ∧ Inv lac ci cur x m ∧
      (x ≠ none → ∃ x' m', Hist lac ci es' x' m' ∧ m'.asked ≠ m.asked) := by
  induction h with
  | init => exact fun _ _ => ⟨[], [], rfl, rfl, fun h => absurd rfl h⟩
  | @step es x m e hh ih =>
    intro hg hl
    obtain ⟨cur, es', rfl, h1, h2⟩ := ih hg.tail hl.tail
    have hl' : NoLocal (e :: cur) := hl.mono (by
      intro y hy
      rcases List.mem_cons.1 hy with rfl | hy
      · exact List.mem_cons_self
      · exact List.mem_cons_of_mem _ (List.mem_append_left _ hy))
    have hg' : OnlyGsm (e :: cur) := by
      intro y hy
      refine hg y ?_
      rcases List.mem_cons.1 hy with rfl | hy
      · exact List.mem_cons_self
      · exact List.mem_cons_of_mem _ (List.mem_append_left _ hy)
    rcases inv_step e h1 hg' hl' with ⟨h3, h4⟩ | ⟨h3, h4⟩
    · refine ⟨e :: cur, es', rfl, h3, fun hx => ?_⟩
      obtain ⟨h5, h6⟩ := h4 hx
      obtain ⟨x', m', h7, h8⟩ := h2 h5
      exact ⟨x', m', h7, h6 ▸ h8⟩
    · exact ⟨[e], cur ++ es', rfl, h3, fun _ => ⟨x, m, hh, h4⟩⟩

theorem from_rts {lac ci : Nat} {x : Option Ctx} {e : Ev} {o : Out} (h : o ∈ (step lac ci x e).2)
    (ho : ¬ ((∃ k, o = .askAddress k) ∨ ∃ g, o = .askSi g)) (hd : o ≠ .done) :
    ∃ c p, x = some c ∧ e = .rts p ∧ o ∈ (rts c p).2 := by
  cases e with
  | notify w n => exact absurd (notify_asks lac ci w x n o h) ho
  | addr w k r =>
    cases x with
    | none => exact absurd h List.not_mem_nil
    | some c => exact absurd (addr_asks w c k r o h) ho
  | si g v => cases x <;> exact absurd h List.not_mem_nil
  | rts p =>
    cases x with
    | none => exact absurd h List.not_mem_nil
    | some c => exact ⟨c, p, rfl, rfl, h⟩
  | ack p =>
    cases x with
    | none => exact absurd h List.not_mem_nil
    | some c =>
      unfold step at h
      dsimp only at h
      split at h
      · exact absurd (List.mem_singleton.1 h) hd
      · exact absurd h List.not_mem_nil
  | noAck p =>
    cases x with
    | none => exact absurd h List.not_mem_nil
    | some c =>
      unfold step at h
      dsimp only at h
      split at h <;> exact absurd h List.not_mem_nil
  | timer =>
    cases x with
    | none => exact absurd h List.not_mem_nil
    | some c =>
      unfold step at h
      dsimp only at h
      split at h <;> exact absurd h List.not_mem_nil

/-! ## The property -/

/-- When a mobile that asks for cells of other PCUs gets the Continue message, it names the cell the mobile asked for last.
Since it asked for this cell: either the network gave no information and the mobile got no container, or the containers it got
are complete and put together they are the system information that the network gave for this cell. Missing: cells of this PCU
(`C41_local`), cells of other kinds of networks (`C41_other_rat`), system information of more than 573 octets
(`C41_long`). -/
theorem C41_continue_partial {lac ci : Nat} {es : List Ev} {x : Option Ctx} {m : Mob} (h : Hist lac ci es x m)
    (hg : OnlyGsm es) (hl : NoLocal es) (e : Ev) (id : Option (Nat × Nat)) (ho : .cont id ∈ (step lac ci x e).2) :
    ∃ arfcn bsic, m.asked = some (some (arfcn, bsic)) ∧ id = some (arfcn, bsic) ∧
      ∃ cur, Since lac ci es (some (arfcn, bsic)) cur ∧
        ((m.got = [] ∧ Failed cur) ∨ ∃ g v, Address cur ⟨lac, ci, arfcn, bsic⟩ g ∧ Info cur g v ∧ m.got ≠ [] ∧
          (v.octets.length ≤ 573 → assemble (if v.psi then 1 else 0) (arfcn, bsic) m.got = some v.octets)) := by
  obtain ⟨c, p, rfl, rfl, hr⟩ := from_rts ho (by rintro (⟨_, h⟩ | ⟨_, h⟩) <;> cases h) nofun
  obtain ⟨cur, es', hes, ⟨hp, hk, ha, hph⟩, hs2⟩ := inv_hist h hg hl
  unfold Phase at hph
  have hkey : c.key = ⟨lac, ci, c.key.arfcn, c.key.bsic⟩ := by rw [← hk.1, ← hk.2]
  cases hs : c.st with
  | cont =>
    rw [hs] at hph
    refine ⟨c.key.arfcn, c.key.bsic, ha, ?_, ?_⟩
    · unfold rts at hr
      rw [hs] at hr
      cases p with
      | none => exact absurd hr List.not_mem_nil
      | some p =>
        have := List.mem_singleton.1 hr
        rw [if_pos hp] at this
        exact Out.cont.inj this
    · obtain ⟨x', m', g1, g2⟩ := hs2 nofun
      refine ⟨cur, ⟨es', x', m', hes, g1, ha ▸ g2⟩, ?_⟩
      rcases hph with h | ⟨g, v, h1, h2, h3, h4⟩
      · exact .inl h
      · exact .inr ⟨g, v, hkey ▸ h1, h2, h3, h4⟩
  | data =>
    unfold rts at hr
    rw [hs] at hr
    cases List.mem_singleton.1 hr
  | initial | resolve | requestSi | waitAck =>
    unfold rts at hr
    rw [hs] at hr
    exact absurd hr List.not_mem_nil

/-- The first container names the cell the mobile asked for last. -/
theorem C41_first_partial {lac ci : Nat} {es : List Ev} {x : Option Ctx} {m : Mob} (h : Hist lac ci es x m)
    (hg : OnlyGsm es) (hl : NoLocal es) (e : Ev) (d : Container) (ho : .data d ∈ (step lac ci x e).2) (id : Nat × Nat)
    (hid : d.id = some id) : m.asked = some (some id) := by
  obtain ⟨c, p, rfl, rfl, hr⟩ := from_rts ho (by rintro (⟨_, h⟩ | ⟨_, h⟩) <;> cases h) nofun
  obtain ⟨cur, es', hes, ⟨hp, hk, ha, hph⟩, hs2⟩ := inv_hist h hg hl
  cases hs : c.st with
  | cont =>
    unfold rts at hr
    rw [hs] at hr
    cases p with
    | none => exact absurd hr List.not_mem_nil
    | some p => cases List.mem_singleton.1 hr
  | data =>
    unfold rts at hr
    rw [hs] at hr
    have := Out.data.inj (List.mem_singleton.1 hr)
    rw [this] at hid
    have hc : (create c).1.id = idOf c := rfl
    rw [hc] at hid
    unfold idOf at hid
    split at hid
    · rw [ha, hid]
    · cases hid
  | initial | resolve | requestSi | waitAck =>
    unfold rts at hr
    rw [hs] at hr
    exact absurd hr List.not_mem_nil

theorem step_rts_create {lac ci : Nat} {p : Nat × Nat} {c : Ctx} (hs : c.st = .data) :
    step lac ci (some c) (.rts (some p)) =
      (some (if (create c).2.1 then goto (create c).2.2 .cont else (create c).2.2), [.data (create c).1]) := by
  show (some (rts c (some p)).1, (rts c (some p)).2) = _
  have hx : rts c (some p) = (if (create c).2.1 then goto (create c).2.2 .cont else (create c).2.2, [.data (create c).1]) := by
    unfold rts; rw [hs]
  rw [hx]

theorem sends_cont {lac ci : Nat} {p : Nat × Nat} {c : Ctx} (hs : c.st = .cont) : ∃ id, .cont id ∈ sends lac ci p (some c) 1 := by
  refine ⟨if c.present then some (c.key.arfcn, c.key.bsic) else none, ?_⟩
  unfold sends
  have : (step lac ci (some c) (.rts (some p))).2 = [.cont (if c.present then some (c.key.arfcn, c.key.bsic) else none)] := by
    show (rts c (some p)).2 = _
    unfold rts
    rw [hs]
  rw [this]
  exact List.mem_cons_self ..

theorem sends_data {lac ci : Nat} {p : Nat × Nat} : ∀ (k : Nat) (c : Ctx) (got : List Container), c.st = .data → Pre c got →
    c.si.octets.length - c.sent ≤ k → ∃ id, .cont id ∈ sends lac ci p (some c) (k / 16 + 2) := by
  intro k
  induction k using Nat.strongRecOn with
  | ind k ih =>
    intro c got hs hp hk
    have hst := step_rts_create (lac := lac) (ci := ci) (p := p) hs
    obtain ⟨c1, c2, c3, c4, c5, c6, c7, c8⟩ := create_spec hp
    by_cases hd : (create c).2.1 = true
    · rw [if_pos hd] at hst
      have hgo : (goto (create c).2.2 .cont).st = .cont := by unfold goto; rw [c3, hs]; rfl
      obtain ⟨id, h⟩ := sends_cont (lac := lac) (ci := ci) (p := p) hgo
      have more : ∀ n, ∀ x : Option Ctx, .cont id ∈ sends lac ci p x 1 → .cont id ∈ sends lac ci p x (n + 1) := by
        intro n x hx
        unfold sends at hx ⊢
        rw [sends, List.append_nil] at hx
        exact List.mem_append_left _ hx
      refine ⟨id, ?_⟩
      rw [sends, hst]
      exact List.mem_append_right _ (more _ _ h)
    · have hd' := Bool.eq_false_iff.2 hd
      rw [if_neg hd] at hst
      have hb : maxLen c ≥ 16 := by unfold maxLen; split <;> decide
      have hf : c.si.octets.length - c.sent ≥ maxLen c := by
        refine Nat.le_of_not_lt fun hlt => ?_
        rw [create_last hlt] at hd'
        cases hd'
      have hsent : (create c).2.2.sent = c.sent + maxLen c := by
        rw [create_full hf]
        show c.sent + _ = _
        rw [List.length_take, List.length_drop]
        omega
      have hlen : (create c).2.2.si.octets.length - (create c).2.2.sent ≤ k - 16 := by
        rw [c5, hsent]
        omega
      obtain ⟨id, h⟩ := ih (k - 16) (by omega) (create c).2.2 _ (c3.trans hs) (c7 hd').1 hlen
      refine ⟨id, ?_⟩
      rw [show k / 16 + 2 = ((k - 16) / 16 + 2) + 1 by omega, sends, hst]
      exact List.mem_append_right _ h

/-- When the procedure neither waits for the network nor for the acknowledgement of a Continue message, the mobile is sent
a Continue message within a bounded number of blocks. -/
theorem C41_progress_partial {lac ci : Nat} {es : List Ev} {c : Ctx} {m : Mob} (h : Hist lac ci es (some c) m)
    (hg : OnlyGsm es) (hl : NoLocal es) (hw : c.st ≠ .resolve ∧ c.st ≠ .requestSi ∧ c.st ≠ .waitAck) (p : Nat × Nat) :
    ∃ id, .cont id ∈ sends lac ci p (some c) (c.si.octets.length / 16 + 2) := by
  obtain ⟨_, _, _, ⟨_, _, _, hph⟩, _⟩ := inv_hist h hg hl
  unfold Phase at hph
  cases hs : c.st with
  | initial => rw [hs] at hph; exact hph.elim
  | resolve => exact absurd hs hw.1
  | requestSi => exact absurd hs hw.2.1
  | waitAck => exact absurd hs hw.2.2
  | cont =>
    obtain ⟨id, h⟩ := sends_cont (lac := lac) (ci := ci) (p := p) hs
    refine ⟨id, ?_⟩
    unfold sends at h ⊢
    rw [sends, List.append_nil] at h
    exact List.mem_append_left _ h
  | data =>
    rw [hs] at hph
    exact sends_data _ c m.got hs hph.2.2 (Nat.sub_le _ _)

/-! ## What is missing -/

def cgiA : Cgi := ⟨262, 42, false, 5, 1, 77⟩

/-- Nothing is known and the network can be asked. -/
def world0 : World := ⟨fun _ => none, fun _ => none, [], ⟨[9, 9], false⟩, true, true⟩

/-- A mobile asks for two cells, then for a third one whose information arrives. -/
def run1 : List Ev :=
  [.notify world0 (.gsm 871 63), .rts none, .notify world0 (.gsm 872 1), .addr world0 ⟨1, 2, 872, 1⟩ (some cgiA),
    .si cgiA ⟨List.range 42, false⟩, .rts none, .rts none, .rts none]

example : Hist 1 2 run1.reverse (play 1 2 none {} run1).1 (play 1 2 none {} run1).2 := by
  have := hist_play (lac := 1) (ci := 2) run1 .init
  rwa [List.append_nil] at this

example : OnlyGsm run1.reverse := by
  intro e he w n hn
  simp only [run1, List.reverse_cons, List.reverse_nil, List.nil_append, List.cons_append, List.mem_cons, List.not_mem_nil, or_false] at he
  rcases he with h | h | h | h | h | h | h | h <;> rw [h] at hn <;> cases hn <;> exact nofun

example : NoLocal run1.reverse := by
  intro e he w hw k g ha c hc
  have : w.cells = [] := by
    simp only [run1, List.reverse_cons, List.reverse_nil, List.nil_append, List.cons_append, List.mem_cons, List.not_mem_nil, or_false] at he
    rcases he with h | h | h | h | h | h | h | h <;> rw [h] at hw <;> cases hw <;> rfl
  rw [this] at hc
  exact absurd hc List.not_mem_nil

example : (step 1 2 (play 1 2 none {} run1).1 (.rts (some (4, 5)))).2 = [.cont (some (872, 1))] ∧
    assemble 0 (872, 1) (play 1 2 none {} run1).2.got = some (List.range 42) := by decide +kernel

/-- A cell of another BTS of this PCU: the mobile gets the system information of its own cell. -/
theorem C41_local : ∃ (w : World) (g : Cgi) (v : Si) (es : List Ev) (x : Option Ctx) (m : Mob),
    w.neigh ⟨1, 2, 871, 63⟩ = some g ∧ (g, v) ∈ w.cells ∧ es = [.rts none, .notify w (.gsm 871 63)] ∧ Hist 1 2 es x m ∧
    m.asked = some (some (871, 63)) ∧ (∃ p, .cont (some (871, 63)) ∈ (step 1 2 x (.rts p)).2) ∧
    assemble 0 (871, 63) m.got = some w.own.octets ∧ v.octets ≠ w.own.octets :=
  ⟨{ world0 with neigh := fun _ => some cgiA, cells := [(cgiA, ⟨[1, 2, 3], false⟩)] }, cgiA, ⟨[1, 2, 3], false⟩, _, _, _,
    rfl, List.mem_cons_self .., rfl, hist_play [.notify _ _, .rts none] .init, by decide +kernel, ⟨some (4, 5), by decide +kernel⟩,
    by decide +kernel, by decide⟩

/-- A mobile that asks for a GSM cell and then for a cell of another kind of network is told to go to the GSM cell. -/
theorem C41_other_rat : ∃ (es : List Ev) (x : Option Ctx) (m : Mob), Hist 1 2 es x m ∧ NoLocal es ∧ m.asked = some none ∧
    ∃ p, .cont (some (871, 63)) ∈ (step 1 2 x (.rts p)).2 :=
  ⟨_, _, _, hist_play [.notify world0 (.gsm 871 63), .notify world0 .otherRat] .init, by
    intro e he w hw k g ha c hc
    have : w.cells = [] := by
      rw [List.append_nil] at he
      simp only [List.reverse_cons, List.reverse_nil, List.nil_append, List.cons_append, List.mem_cons, List.not_mem_nil, or_false] at he
      rcases he with h | h <;> rw [h] at hw <;> cases hw <;> rfl
    rw [this] at hc
    exact absurd hc List.not_mem_nil, by decide +kernel, ⟨some (4, 5), by decide +kernel⟩⟩

/-- 28 messages of 21 octets: the index of the containers starts again at 0, what the mobile got is not complete when it
gets the Continue message. -/
theorem C41_long : ∃ (v : Si) (es : List Ev) (x : Option Ctx) (m : Mob),
    v.octets.length = 588 ∧ Info es cgiA v ∧ Address es ⟨1, 2, 871, 63⟩ cgiA ∧ Hist 1 2 es x m ∧
    m.asked = some (some (871, 63)) ∧ (∃ p, .cont (some (871, 63)) ∈ (step 1 2 x (.rts p)).2) ∧
    assemble 0 (871, 63) m.got = none :=
  ⟨⟨List.replicate 588 7, false⟩, _, _, _, by decide +kernel,
    ⟨.notify { world0 with neigh := fun _ => some cgiA, sis := fun _ => some ⟨List.replicate 588 7, false⟩ } (.gsm 871 63),
      by rw [List.append_nil]; exact List.mem_reverse.2 (List.mem_cons_self ..), .inl ⟨_, rfl, rfl⟩⟩,
    ⟨.notify { world0 with neigh := fun _ => some cgiA, sis := fun _ => some ⟨List.replicate 588 7, false⟩ } (.gsm 871 63),
      by rw [List.append_nil]; exact List.mem_reverse.2 (List.mem_cons_self ..), .inl ⟨_, rfl, rfl⟩⟩,
    hist_play (Ev.notify { world0 with neigh := fun _ => some cgiA, sis := fun _ => some ⟨List.replicate 588 7, false⟩ } (.gsm 871 63) ::
      List.replicate 33 (.rts none)) .init, by decide +kernel, ⟨some (4, 5), by decide +kernel⟩, by decide +kernel⟩

end Verif.Nacc
