import Verif.Lemmas.VtyKeep
import Verif.Spec.VtyOne
/-!
# One command: the parts of the written file
-/

namespace Verif.Vty

set_option maxRecDepth 4000

/-- The parts of the file. -/
inductive S where
  | pcu | fcInterval | bvcSize | bvcRate | msSize | msRate | cs | csMax | adj | downgrade | csLq | mcsLq | mcs | mcsMax | ws | arq
  | life | hyst | idle | codel | algo | two | alpha | gamma | preempt | msclass | sock | host | categ (i : Nat) | dialect | dscp | prio
  | timer (t : String × Nat × Nat)
deriving DecidableEq

/-- Their lines. -/
def seg (c : Cfg) : S → List Line
  | .pcu => [[.w "pcu"]]
  | .fcInterval => [[.w "flow-control-interval", .n c.fcInterval]]
  | .bvcSize => unless0 c.fcBvcSize [.w "flow-control", .w "force-bvc-bucket-size", .n c.fcBvcSize]
  | .bvcRate => unless0 c.fcBvcRate [.w "flow-control", .w "force-bvc-leak-rate", .n c.fcBvcRate]
  | .msSize => unless0 c.fcMsSize [.w "flow-control", .w "force-ms-bucket-size", .n c.fcMsSize]
  | .msRate => unless0 c.fcMsRate [.w "flow-control", .w "force-ms-leak-rate", .n c.fcMsRate]
  | .cs => wCs c
  | .csMax => wCsMax c
  | .adj => wAdj c
  | .downgrade => wDowngrade c
  | .csLq => [wCsLq c]
  | .mcsLq => [wMcsLq c]
  | .mcs => wMcs c
  | .mcsMax => wMcsMax c
  | .ws => [wWs c]
  | .arq => wArq c
  | .life => if c.lifetime = 0xffff then [[.w "queue", .w "lifetime", .w "infinite"]] else unless0 c.lifetime [.w "queue", .w "lifetime", .n c.lifetime]
  | .hyst => unless0 c.discard [.w "queue", .w "hysteresis", .n c.discard]
  | .idle => unless0 c.idleAck [.w "queue", .w "idle-ack-delay", .n c.idleAck]
  | .codel => wCodel c
  | .algo => wAlgo c
  | .two => unless0 c.twoPhase [.w "two-phase-access"]
  | .alpha => if c.alpha ≠ 255 then [[.w "alpha", .n c.alpha]] else []
  | .gamma => [[.w "gamma", .n (c.gamma * 2)]]
  | .preempt => if c.preempt then [] else [[.w "no", .w "dl-tbf-preemptive-retransmission"]]
  | .msclass => if c.msclass ≠ 12 then [[.w "multislot-class", .w "default", .n c.msclass]] else []
  | .sock => if c.sock ≠ sockDefault then [[.w "pcu-socket", c.sock]] else []
  | .host => match c.host with
    | some h => [[.w "gsmtap-remote-host", h]]
    | none => []
  | .categ i => (if c.mask.getLsbD i then (categName i).map fun s => [.w "gsmtap-category", .w s] else none).toList
  | .dialect => if c.sns then [[.w "gb-dialect", .w "ip-sns"]] else [[.w "gb-dialect", .w "classic"]]
  | .dscp => match c.dscp with
    | some v => [[.w "gb", .w "ip-dscp", .n v]]
    | none => []
  | .prio => match c.prio with
    | some v => [[.w "gb", .w "socket-priority", .n v]]
    | none => []
  | .timer t => (if c.timers t.1 = t.2.1 then none else some [.w "timer", .w t.1, .n (c.timers t.1)]).toList

/-- What they are about. -/
def key : S → List String
  | .pcu => ["pcu"]
  | .fcInterval => ["flow-control-interval"]
  | .bvcSize => ["flow-control", "force-bvc-bucket-size"]
  | .bvcRate => ["flow-control", "force-bvc-leak-rate"]
  | .msSize => ["flow-control", "force-ms-bucket-size"]
  | .msRate => ["flow-control", "force-ms-leak-rate"]
  | .cs => ["cs"]
  | .csMax => ["cs", "max"]
  | .adj => ["cs", "threshold"]
  | .downgrade => ["cs", "downgrade-threshold"]
  | .csLq => ["cs", "link-quality-ranges"]
  | .mcsLq => ["mcs", "link-quality-ranges"]
  | .mcs => ["mcs"]
  | .mcsMax => ["mcs", "max"]
  | .ws => ["window-size"]
  | .arq => ["egprs", "dl"]
  | .life => ["queue", "lifetime"]
  | .hyst => ["queue", "hysteresis"]
  | .idle => ["queue", "idle-ack-delay"]
  | .codel => ["queue", "codel"]
  | .algo => ["alloc-algorithm"]
  | .two => ["two-phase-access"]
  | .alpha => ["alpha"]
  | .gamma => ["gamma"]
  | .preempt => ["dl-tbf-preemptive-retransmission"]
  | .msclass => ["multislot-class", "default"]
  | .sock => ["pcu-socket"]
  | .host => ["gsmtap-remote-host"]
  | .categ i => ["gsmtap-category", (categName i).getD ""]
  | .dialect => ["gb-dialect"]
  | .dscp => ["gb", "ip-dscp"]
  | .prio => ["gb", "socket-priority"]
  | .timer t => ["timer", t.1]

/-- The order of the file. -/
def order : List S :=
  [.pcu, .fcInterval, .bvcSize, .bvcRate, .msSize, .msRate, .cs, .csMax, .adj, .downgrade, .csLq, .mcsLq, .mcs, .mcsMax, .ws, .arq, .life, .hyst,
   .idle, .codel, .algo, .two, .alpha, .gamma, .preempt, .msclass, .sock, .host] ++ (List.range 32).map .categ ++ [.dialect, .dscp, .prio] ++
  tdefs.map .timer

theorem filterMap_flat {α β : Type} (f : α → Option β) (l : List α) : l.filterMap f = l.flatMap fun x => (f x).toList := by
  induction l with
  | nil => rfl
  | cons x l ih => rw [List.filterMap_cons, List.flatMap_cons, ← ih]; cases f x <;> rfl

theorem write_eq (c : Cfg) : write c = order.flatMap (seg c) := by
  unfold write order
  simp only [List.flatMap_append, List.flatMap_cons, List.flatMap_map, seg, wFc, wQueue, wRadio, wGsmtap, wGb,
    wTimers, filterMap_flat, List.append_assoc, List.cons_append, List.nil_append]
  rfl

theorem seg_key (c : Cfg) (s : S) : ∀ l ∈ seg c s, subject l = key s := by
  cases s <;> simp only [seg, unless0, wCs, wCsMax, wAdj, wDowngrade, wMcs, wMcsMax, wArq, wCodel, wAlgo, wCsLq, wMcsLq, wWs] <;>
    (try intro l h) <;> (repeat' split at h) <;>
    (try simp only [List.mem_cons, List.not_mem_nil, or_false, Option.toList_some, Option.toList_none] at h) <;>
    (try subst h) <;> (try (exact absurd h List.not_mem_nil)) <;> (try (simp [subject, nameOf, groups, key]; done)) 
  · rename_i i _
    cases hc : categName i with
    | none => rw [hc] at h; simp at h
    | some x =>
      rw [hc] at h
      simp at h
      subst h
      simp [subject, nameOf, groups, key, hc]


/-- The form of a line that fits, and its arguments. -/
def shape : List Pat → Line → List Tok → Prop
  | [], l, a => l = [] ∧ a = []
  | .lit s :: ps, l, a => ∃ r, l = .w s :: r ∧ shape ps r a
  | .rng lo hi :: ps, l, a => ∃ v r b, l = .n v :: r ∧ a = .n v :: b ∧ lo ≤ v ∧ v ≤ hi ∧ shape ps r b
  | .one ss :: ps, l, a => ∃ t r b, l = .w t :: r ∧ a = .w t :: b ∧ t ∈ ss ∧ shape ps r b
  | .alt s lo hi :: ps, l, a => (∃ v r b, l = .n v :: r ∧ a = .n v :: b ∧ lo ≤ v ∧ v ≤ hi ∧ shape ps r b) ∨
      ∃ r b, l = .w s :: r ∧ a = .w s :: b ∧ shape ps r b
  | .var :: ps, l, a => ∃ t r b, l = t :: r ∧ a = t :: b ∧ shape ps r b
  | .optRng lo hi :: ps, l, a => (∃ v r b, l = .n v :: r ∧ a = .n v :: b ∧ lo ≤ v ∧ v ≤ hi ∧ shape ps r b) ∨ (l = [] ∧ shape ps [] a)
  | .optVar :: ps, l, a => (∃ t r b, l = t :: r ∧ a = t :: b ∧ shape ps r b) ∨ (l = [] ∧ shape ps [] a)
  | .optAlt s lo hi :: ps, l, a => (∃ v r b, l = .n v :: r ∧ a = .n v :: b ∧ lo ≤ v ∧ v ≤ hi ∧ shape ps r b) ∨
      (∃ r b, l = .w s :: r ∧ a = .w s :: b ∧ shape ps r b) ∨ (l = [] ∧ shape ps [] a)

theorem shape_of_fits : ∀ (ps : List Pat) (l : Line) (a : List Tok), fits ps l = some a → shape ps l a := by
  intro ps
  induction ps with
  | nil =>
    intro l a h
    cases l with
    | nil => simp only [fits, Option.some.injEq] at h; exact ⟨rfl, h.symm⟩
    | cons t ts => simp [fits] at h
  | cons p ps ih =>
    intro l a h
    cases l with
    | nil =>
      cases p <;> simp only [fits, reduceCtorEq] at h
      · exact Or.inr ⟨rfl, ih _ _ h⟩
      · exact Or.inr ⟨rfl, ih _ _ h⟩
      · exact Or.inr (Or.inr ⟨rfl, ih _ _ h⟩)
    | cons t ts =>
      have h' : (match arg p t with | none => none | some a => match fits ps ts with | none => none | some r => some (a ++ r)) = some a := by
        cases p <;> exact h
      cases ha : arg p t with
      | none => rw [ha] at h'; cases h'
      | some b =>
        cases hf : fits ps ts with
        | none => rw [ha, hf] at h'; cases h'
        | some r =>
          rw [ha, hf] at h'
          dsimp only at h'
          injection h' with h'
          subst h'
          have hr := ih _ _ hf
          cases p <;> cases t <;> simp only [arg] at ha <;> (try cases ha) <;> (try split at ha) <;> (try cases ha)
          case cons.cons.some.some.lit.w.isTrue.refl hb => subst hb; exact ⟨_, rfl, hr⟩
          case cons.cons.some.some.rng.n.isTrue.refl hb => exact ⟨_, _, _, rfl, rfl, hb.1, hb.2, hr⟩
          case cons.cons.some.some.one.w.isTrue.refl hb => exact ⟨_, _, _, rfl, rfl, hb, hr⟩
          case cons.cons.some.some.alt.w.isTrue.refl hb => subst hb; exact Or.inr ⟨_, _, rfl, rfl, hr⟩
          case cons.cons.some.some.alt.n.isTrue.refl hb => exact Or.inl ⟨_, _, _, rfl, rfl, hb.1, hb.2, hr⟩
          case cons.cons.some.some.optRng.n.isTrue.refl hb => exact Or.inl ⟨_, _, _, rfl, rfl, hb.1, hb.2, hr⟩
          case cons.cons.some.some.optAlt.w.isTrue.refl hb => subst hb; exact Or.inr (Or.inl ⟨_, _, rfl, rfl, hr⟩)
          case cons.cons.some.some.optAlt.n.isTrue.refl hb => exact Or.inl ⟨_, _, _, rfl, rfl, hb.1, hb.2, hr⟩
          case cons.cons.some.some.var.w.refl => exact ⟨_, _, _, rfl, rfl, hr⟩
          case cons.cons.some.some.var.n.refl => exact ⟨_, _, _, rfl, rfl, hr⟩
          case cons.cons.some.some.optVar.w.refl => exact Or.inl ⟨_, _, _, rfl, rfl, hr⟩
          case cons.cons.some.some.optVar.n.refl => exact Or.inl ⟨_, _, _, rfl, rfl, hr⟩

/-- What a command does to the parts. -/
structure Claim (c : Cfg) (l : Line) (c' : Cfg) : Prop where
  others : ∀ s ∈ order, touches l (key s) = false → seg c' s = seg c s
  own : ¬ isBucketTime l → (order.filter fun s => touches l (key s)).flatMap (seg c') =
    expected l ((order.filter fun s => touches l (key s)).flatMap (seg c))

theorem sameThing_eq (c : Cfg) (l : Line) : sameThing l (write c) = (order.filter fun s => touches l (key s)).flatMap (seg c) := by
  rw [sameThing, write_eq]
  generalize order = o
  induction o with
  | nil => rfl
  | cons s o ih =>
    rw [List.flatMap_cons, List.filter_append, ih, List.filter_cons]
    have hk := seg_key c s
    cases ht : touches l (key s) with
    | true =>
      rw [if_pos rfl, List.flatMap_cons]
      congr 1
      rw [List.filter_eq_self]
      intro x hx
      rw [hk x hx]; exact ht
    | false =>
      rw [if_neg (by decide)]
      have : (seg c s).filter (fun x => touches l (subject x)) = [] := by
        rw [List.filter_eq_nil_iff]
        intro x hx
        rw [hk x hx, ht]; decide
      rw [this, List.nil_append]

theorem otherThings_eq (c : Cfg) (l : Line) : otherThings l (write c) = (order.filter fun s => !touches l (key s)).flatMap (seg c) := by
  rw [otherThings, write_eq]
  generalize order = o
  induction o with
  | nil => rfl
  | cons s o ih =>
    rw [List.flatMap_cons, List.filter_append, ih, List.filter_cons]
    have hk := seg_key c s
    cases ht : touches l (key s) with
    | false =>
      rw [if_pos (by rfl), List.flatMap_cons]
      congr 1
      rw [List.filter_eq_self]
      intro x hx
      rw [hk x hx, ht]; rfl
    | true =>
      rw [if_neg (by decide)]
      have : (seg c s).filter (fun x => !touches l (subject x)) = [] := by
        rw [List.filter_eq_nil_iff]
        intro x hx
        rw [hk x hx, ht]; decide
      rw [this, List.nil_append]

theorem others_of_claim {c c' : Cfg} {l : Line} (h : Claim c l c') : otherThings l (write c') = otherThings l (write c) := by
  rw [otherThings_eq, otherThings_eq]
  have : ∀ o : List S, (∀ s ∈ o, seg c' s = seg c s) → o.flatMap (seg c') = o.flatMap (seg c) := by
    intro o
    induction o with
    | nil => intro _; rfl
    | cons s o ih =>
      intro hs
      rw [List.flatMap_cons, List.flatMap_cons, hs s List.mem_cons_self, ih fun t ht => hs t (List.mem_cons_of_mem _ ht)]
  apply this
  intro s hs
  rw [List.mem_filter] at hs
  exact h.others s hs.1 (by simpa using hs.2)

/-- Not one of the two commands about all kinds of frames. -/
def single (k : List String) : Bool := !(k == ["gsmtap-category", "enable-all"] || k == ["gsmtap-category", "disable-all"])

theorem touches_single {l : Line} {k : List String} (hs : subject l = k) (hk : single k = true) (x : List String) : touches l x = (x == k) := by
  unfold touches isAll
  rw [hs]
  unfold single at hk
  simp only [Bool.not_eq_true'] at hk
  rw [hk, Bool.false_and, Bool.or_false]

theorem claim_one {c c' : Cfg} {l : Line} (s0 : S) (hs : subject l = key s0) (hk : single (key s0) = true)
    (hu : (order.filter fun s => key s == key s0) = [s0]) (ho : ∀ s ∈ order, s ≠ s0 → seg c' s = seg c s)
    (hown : seg c' s0 = expected l (seg c s0)) : Claim c l c' := by
  constructor
  · intro s hm ht
    rw [touches_single hs hk] at ht
    apply ho s hm
    intro h
    subst h
    simp at ht
  · intro _
    simp only [touches_single hs hk, hu, List.flatMap_cons, List.flatMap_nil, List.append_nil]
    exact hown

/-- A command about something that is not written. -/
theorem claim_none {c c' : Cfg} {l : Line} (k : List String) (hs : subject l = k) (hk : single k = true)
    (hu : (order.filter fun s => key s == k) = []) (ho : ∀ s, seg c' s = seg c s) (hown : ¬ isBucketTime l → expected l [] = []) : Claim c l c' := by
  constructor
  · intro s _ _; exact ho s
  · intro hb
    simp only [touches_single hs hk, hu, List.flatMap_nil]
    exact (hown hb).symm

end Verif.Vty
