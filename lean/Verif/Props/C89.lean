import Verif.Model.Reports
import Verif.Spec.Reports
/-!
# C89: the figures reported once a second are about all that happened since the last report
-/

namespace Verif.Reports

/-- Any measurements can be divided so, in one way, and none is left out or counted twice. -/
theorem C89_parts {α : Type} (t : α → Nat) (mark : Nat) (l : List α) :
    ∃ gs r, Parts t mark l gs r ∧ l = (gs.map Prod.snd).flatten ++ r ∧
      ∀ gs' r', Parts t mark l gs' r' → gs' = gs ∧ r' = r := by
  have hex : ∀ (n : Nat) (l : List α) (mark : Nat), l.length ≤ n →
      ∃ gs r, Parts t mark l gs r ∧ l = (gs.map Prod.snd).flatten ++ r := by
    intro n
    induction n with
    | zero =>
      intro l mark h
      cases l with
      | nil => exact ⟨[], [], .rest nofun, rfl⟩
      | cons x l => simp at h
    | succ n ih =>
      intro l
      have hsplit : ∀ l : List α, ∀ mark : Nat, (∀ x ∈ l, t x < mark + 1000000000) ∨
          ∃ pre x post, l = pre ++ x :: post ∧ (∀ y ∈ pre, t y < mark + 1000000000) ∧
            mark + 1000000000 ≤ t x := by
        intro l mark
        induction l with
        | nil => exact Or.inl nofun
        | cons a l ih =>
          by_cases ha : t a < mark + 1000000000
          · rcases ih with h | ⟨p, x, q, h1, h2, h3⟩
            · refine Or.inl fun x hx => ?_
              rcases List.mem_cons.1 hx with rfl | hx
              · exact ha
              · exact h x hx
            · refine Or.inr ⟨a :: p, x, q, by rw [h1]; rfl, ?_, h3⟩
              intro y hy
              rcases List.mem_cons.1 hy with rfl | hy
              · exact ha
              · exact h2 y hy
          · exact Or.inr ⟨[], a, l, rfl, nofun, by omega⟩
      intro mark hl
      rcases hsplit l mark with h | ⟨p, x, q, h1, h2, h3⟩
      · exact ⟨[], l, .rest h, rfl⟩
      · subst h1
        simp only [List.length_append, List.length_cons] at hl
        obtain ⟨gs, r, h4, h5⟩ := ih q (t x) (by omega)
        refine ⟨_, r, .report h2 h3 h4, ?_⟩
        simp only [List.map_cons, List.flatten_cons, List.append_assoc, List.cons_append, List.nil_append]
        rw [← h5]
  have huniq : ∀ {mark : Nat} {l : List α} {gs : List (Nat × List α)} {r : List α}, Parts t mark l gs r →
      ∀ gs' r', Parts t mark l gs' r' → gs' = gs ∧ r' = r := by
    intro mark l gs r h
    induction h with
    | rest hr =>
      intro gs' r' h'
      cases h' with
      | rest => exact ⟨rfl, rfl⟩
      | report _ h2 _ =>
        have := hr _ (List.mem_append_right _ (List.mem_cons_self ..))
        omega
    | @report mark pre l r x gs h1 h2 h3 ih =>
      intro gs' r' h'
      generalize hL : pre ++ x :: l = L at h'
      cases h' with
      | rest hr =>
        have := hr x (by rw [← hL]; simp)
        omega
      | @report _ pre' l' _ x' gs' k1 k2 k3 =>
        have : pre = pre' ∧ x = x' ∧ l = l' := by
          clear h3 ih k3
          induction pre generalizing pre' with
          | nil =>
            cases pre' with
            | nil => cases hL; exact ⟨rfl, rfl, rfl⟩
            | cons y p =>
              cases hL
              have := k1 x (List.mem_cons_self ..)
              omega
          | cons y p ihp =>
            cases pre' with
            | nil =>
              cases hL
              have := h1 x' (List.mem_cons_self ..)
              omega
            | cons y' p' =>
              simp only [List.cons_append, List.cons.injEq] at hL
              obtain ⟨rfl, hL⟩ := hL
              obtain ⟨e1, e2, e3⟩ := ihp (fun z hz => h1 z (List.mem_cons_of_mem _ hz))
                (fun z hz => k1 z (List.mem_cons_of_mem _ hz)) hL
              exact ⟨by rw [e1], e2, e3⟩
        obtain ⟨rfl, rfl, rfl⟩ := this
        obtain ⟨e1, e2⟩ := ih _ _ k3
        exact ⟨by rw [e1], e2⟩
  obtain ⟨gs, r, h1, h2⟩ := hex l.length l mark (Nat.le_refl _)
  exact ⟨gs, r, h1, h2, huniq h1⟩

theorem secs_lt {now mark : Nat} : secs now mark < 1 ↔ now < mark + 1000000000 := by
  unfold secs
  omega

theorem tdiv_mean (s : Int) (n : Nat) (hn : 0 < n) :
    (s.tdiv n * n).natAbs ≤ s.natAbs ∧ s.natAbs < (s.tdiv n * n).natAbs + n ∧ 0 ≤ s.tdiv n * s := by
  have h1 : (s.tdiv n).natAbs = s.natAbs / n := by rw [Int.natAbs_tdiv]; rfl
  have h2 : (s.tdiv n * n).natAbs = s.natAbs / n * n := by rw [Int.natAbs_mul, h1]; rfl
  have h3 := Nat.div_add_mod s.natAbs n
  have h4 := Nat.mod_lt s.natAbs hn
  have h5 : s.natAbs / n * n = n * (s.natAbs / n) := Nat.mul_comm _ _
  refine ⟨by omega, by omega, ?_⟩
  rcases Int.le_total 0 s with h | h
  · exact Int.mul_nonneg (Int.tdiv_nonneg h (by omega)) h
  · have : s.tdiv n ≤ 0 := by
      have := Int.tdiv_nonneg (a := -s) (b := n) (by omega) (by omega)
      rw [Int.neg_tdiv] at this
      omega
    have := Int.mul_nonneg (a := -(s.tdiv n)) (b := -s) (by omega) (by omega)
    rw [Int.neg_mul_neg] at this
    exact this

theorem sum_bound (l : List (Nat × Int)) (h : ∀ p ∈ l, -128 ≤ p.2 ∧ p.2 ≤ 127) :
    -128 * (l.length : Int) ≤ (l.map Prod.snd).sum ∧ (l.map Prod.snd).sum ≤ 127 * (l.length : Int) := by
  induction l with
  | nil => simp
  | cons p l ih =>
    have h1 := h p (List.mem_cons_self ..)
    have h2 := ih (fun q hq => h q (List.mem_cons_of_mem _ hq))
    simp only [List.map_cons, List.sum_cons, List.length_cons]
    omega

theorem rssis_cons (s : Rssi) (t : Nat) (v : Int) (l : List (Nat × Int)) : rssis s ((t, v) :: l) =
    (rssi s t v).bind fun p => (rssis p.1 l).map fun q => (q.1, p.2.toList ++ q.2) := rfl

/-- Blocks that come within a second are added up. -/
theorem rssis_pre {mark : Nat} (pre l : List (Nat × Int)) (hv : ∀ p ∈ pre, -128 ≤ p.2 ∧ p.2 ≤ 127)
    (ht : ∀ p ∈ pre, p.1 < mark + 1000000000) : ∀ (sum : Int) (n : Nat), n + pre.length < 16777216 →
    -128 * (n : Int) ≤ sum → sum ≤ 127 * n →
    rssis ⟨mark, sum, n⟩ (pre ++ l) = rssis ⟨mark, sum + (pre.map Prod.snd).sum, (n + pre.length : Nat)⟩ l := by
  induction pre with
  | nil => intro sum n _ _ _; simp
  | cons p pre ih =>
    obtain ⟨t, v⟩ := p
    intro sum n hn h1 h2
    have h3 := hv (t, v) (List.mem_cons_self ..)
    have h4 := ht (t, v) (List.mem_cons_self ..)
    simp only [List.length_cons] at hn
    dsimp only at h3 h4
    rw [List.cons_append, rssis_cons]
    unfold rssi
    rw [if_neg (by dsimp only; omega)]
    simp only []
    rw [if_pos (secs_lt.2 h4)]
    have := ih (fun q hq => hv q (List.mem_cons_of_mem _ hq)) (fun q hq => ht q (List.mem_cons_of_mem _ hq))
      (sum + v) (n + 1) (by omega) (by omega) (by omega)
    simp only [Option.bind_some, Option.toList_none, List.nil_append]
    rw [show ((n : Int) + 1) = ((n + 1 : Nat) : Int) from by omega, this]
    simp only [List.map_cons, List.sum_cons, List.length_cons]
    rw [Int.add_assoc, show n + 1 + pre.length = n + (pre.length + 1) from by omega]
    exact Option.map_id_fun' ▸ rfl

/-- The signal strength reported for an uplink TBF is the mean of all blocks since the last report. -/
theorem C89_rssi (t0 : Nat) (l : List (Nat × Int)) (hv : ∀ p ∈ l, -128 ≤ p.2 ∧ p.2 ≤ 127)
    (gs : List (Nat × List (Nat × Int))) (r : List (Nat × Int)) (hp : Parts Prod.fst t0 l gs r)
    (hn : (∀ g ∈ gs, g.2.length < 16777216) ∧ r.length < 16777216) :
    ∃ s out, rssis ⟨t0, 0, 0⟩ l = some (s, out) ∧ out.length = gs.length ∧
      ∀ p ∈ out.zip gs, IsMean p.1 (p.2.2.map Prod.snd) := by
  induction hp with
  | @rest mark l h =>
    have := rssis_pre l [] hv h 0 0 (by simpa using hn.2) (by simp) (by simp)
    rw [List.append_nil] at this
    rw [show rssis ⟨mark, 0, 0⟩ l = _ from this]
    exact ⟨_, [], rfl, rfl, nofun⟩
  | @report mark pre l r x gs h1 h2 h3 ih =>
    obtain ⟨t, v⟩ := x
    have hlen := hn.1 _ (List.mem_cons_self ..)
    simp only [List.length_append, List.length_cons, List.length_nil] at hlen
    have hvp : ∀ p ∈ pre, -128 ≤ p.2 ∧ p.2 ≤ 127 := fun p hp => hv p (List.mem_append_left _ hp)
    have hvx := hv (t, v) (List.mem_append_right _ (List.mem_cons_self ..))
    obtain ⟨s, out, k1, k2, k3⟩ := ih (fun p hp => hv p (List.mem_append_right _ (List.mem_cons_of_mem _ hp)))
      ⟨fun g hg => hn.1 g (List.mem_cons_of_mem _ hg), hn.2⟩
    have hb := sum_bound pre hvp
    dsimp only at h2 hvx k1
    have hpre := rssis_pre pre ((t, v) :: l) hvp h1 0 0 (by omega) (by simp) (by simp)
    generalize hS : (pre.map Prod.snd).sum = S at hpre hb
    generalize hN : pre.length = N at hpre hb hlen
    have hstep : rssi ⟨mark, S, (N : Nat)⟩ t v = some (⟨t, 0, 0⟩, some ((S + v).tdiv ((N + 1 : Nat) : Int))) := by
      unfold rssi
      rw [if_neg (by dsimp only; omega)]
      simp only []
      rw [if_neg (by rw [secs_lt]; omega), if_neg (by omega)]
      rfl
    refine ⟨s, (S + v).tdiv ((N + 1 : Nat) : Int) :: out, ?_, by simp [k2], ?_⟩
    · rw [show rssis ⟨mark, 0, 0⟩ (pre ++ (t, v) :: l) = _ from hpre]
      simp only [Int.zero_add, Nat.zero_add]
      rw [rssis_cons, hstep, Option.bind_some]
      show Option.map _ (rssis ⟨t, 0, 0⟩ l) = _
      rw [k1]
      rfl
    · intro p hp
      rw [List.zip_cons_cons] at hp
      rcases List.mem_cons.1 hp with rfl | hp
      · have hsum : (List.map Prod.snd (pre ++ [(t, v)])).sum = S + v := by
          rw [List.map_append, List.sum_append, hS]
          simp
        have hl : (List.map Prod.snd (pre ++ [(t, v)])).length = N + 1 := by simp [hN]
        unfold IsMean
        dsimp only
        rw [hsum, hl]
        exact tdiv_mean (S + v) (N + 1) (by omega)
      · exact k3 p hp

def received (l : List (Nat × Nat × Nat)) : Nat := (l.map fun p => p.2.1).sum
def lost (l : List (Nat × Nat × Nat)) : Nat := (l.map fun p => p.2.2).sum

theorem losses_cons (s : Loss) (t a b : Nat) (l : List (Nat × Nat × Nat)) : losses s ((t, a, b) :: l) =
    ((losses (loss s t a b).1 l).1, (loss s t a b).2.toList ++ (losses (loss s t a b).1 l).2) := rfl

theorem losses_pre {mark : Nat} (pre l : List (Nat × Nat × Nat)) (hv : ∀ p ∈ pre, p.2.1 + p.2.2 ≠ 0)
    (ht : ∀ p ∈ pre, p.1 < mark + 1000000000) : ∀ (lo re : Nat), lo + re + received pre + lost pre < 65536 →
    losses ⟨mark, lo, re⟩ (pre ++ l) = losses ⟨mark, lo + lost pre, re + received pre⟩ l := by
  induction pre with
  | nil => intro lo re _; rfl
  | cons p pre ih =>
    obtain ⟨t, a, b⟩ := p
    intro lo re hs
    have h3 := hv (t, a, b) (List.mem_cons_self ..)
    have h4 := ht (t, a, b) (List.mem_cons_self ..)
    dsimp only at h3 h4
    simp only [received, lost, List.map_cons, List.sum_cons] at hs
    have := ih (fun q hq => hv q (List.mem_cons_of_mem _ hq)) (fun q hq => ht q (List.mem_cons_of_mem _ hq))
      (lo + b) (re + a) (by simp only [received, lost]; omega)
    have hl : loss ⟨mark, lo, re⟩ t a b = (⟨mark, lo + b, re + a⟩, none) := by
      unfold loss
      rw [if_neg (by omega)]
      simp only []
      rw [if_pos (secs_lt.2 h4), Nat.mod_eq_of_lt (by omega), Nat.mod_eq_of_lt (by omega)]
    rw [List.cons_append, losses_cons, hl]
    simp only [Option.toList_none, List.nil_append]
    rw [this]
    simp only [received, lost, List.map_cons, List.sum_cons, Nat.add_assoc]

theorem losses_filter (s : Loss) (l : List (Nat × Nat × Nat)) (h : ∀ p ∈ l, p.2.1 + p.2.2 < 65536) :
    losses s l = losses s (l.filter fun p => p.2.1 + p.2.2 ≠ 0) := by
  induction l generalizing s with
  | nil => rfl
  | cons p l ih =>
    obtain ⟨t, a, b⟩ := p
    have h1 := h (t, a, b) (List.mem_cons_self ..)
    have h2 := fun s => ih s (fun q hq => h q (List.mem_cons_of_mem _ hq))
    dsimp only at h1
    by_cases h0 : a + b = 0
    · rw [List.filter_cons_of_neg (by simp; omega), ← h2]
      show (_, _) = _
      rw [show loss s t a b = (s, none) from by unfold loss; rw [if_pos (by omega)]]
      rfl
    · rw [List.filter_cons_of_pos (by simp; omega)]
      rw [losses_cons, losses_cons, h2]

/-- The loss reported for a downlink TBF is the share of the lost blocks among all that were reported by
the mobile since the last report. -/
theorem C89_loss (t0 : Nat) (l : List (Nat × Nat × Nat)) (hl : ∀ p ∈ l, p.2.1 + p.2.2 < 65536)
    (gs : List (Nat × List (Nat × Nat × Nat))) (r : List (Nat × Nat × Nat))
    (hp : Parts Prod.fst t0 (l.filter fun p => p.2.1 + p.2.2 ≠ 0) gs r)
    (hn : (∀ g ∈ gs, received g.2 + lost g.2 < 65536) ∧ received r + lost r < 65536) :
    (losses ⟨t0, 0, 0⟩ l).2.length = gs.length ∧
      ∀ p ∈ (losses ⟨t0, 0, 0⟩ l).2.zip gs, IsPercent p.1 (lost p.2.2) (received p.2.2) ∧ p.1 ≤ 100 := by
  rw [losses_filter _ _ hl]
  have hnz : ∀ p ∈ l.filter (fun p => p.2.1 + p.2.2 ≠ 0), p.2.1 + p.2.2 ≠ 0 := by
    intro p hp
    exact of_decide_eq_true (List.mem_filter.1 hp).2
  generalize l.filter (fun p => p.2.1 + p.2.2 ≠ 0) = l at hp hnz
  clear hl
  induction hp with
  | @rest mark l h =>
    have := losses_pre l [] hnz h 0 0 (by omega)
    rw [List.append_nil] at this
    rw [this]
    exact ⟨rfl, nofun⟩
  | @report mark pre l r x gs h1 h2 h3 ih =>
    obtain ⟨t, a, b⟩ := x
    have hlen := hn.1 _ (List.mem_cons_self ..)
    have hnp : ∀ p ∈ pre, p.2.1 + p.2.2 ≠ 0 := fun p hp => hnz p (List.mem_append_left _ hp)
    have hnx := hnz (t, a, b) (List.mem_append_right _ (List.mem_cons_self ..))
    obtain ⟨k1, k2⟩ := ih ⟨fun g hg => hn.1 g (List.mem_cons_of_mem _ hg), hn.2⟩
      (fun p hp => hnz p (List.mem_append_right _ (List.mem_cons_of_mem _ hp)))
    have e1 : received (pre ++ [(t, a, b)]) = received pre + a := by simp [received]
    have e2 : lost (pre ++ [(t, a, b)]) = lost pre + b := by simp [lost]
    dsimp only at h2 hnx k1 k2 hlen
    rw [e1, e2] at hlen
    have hpre := losses_pre pre ((t, a, b) :: l) hnp h1 0 0 (by omega)
    simp only [Nat.zero_add] at hpre
    have hstep : loss ⟨mark, lost pre, received pre⟩ t a b =
        (⟨t, 0, 0⟩, some ((lost pre + b) * 100 / (lost pre + b + (received pre + a)))) := by
      unfold loss
      rw [if_neg (by omega)]
      simp only []
      rw [if_neg (by rw [secs_lt]; omega), Nat.mod_eq_of_lt (a := received pre + a) (by omega),
        Nat.mod_eq_of_lt (a := lost pre + b) (by omega), Nat.mod_eq_of_lt (by omega), if_neg (by omega)]
    rw [hpre, losses_cons, hstep]
    simp only [Option.toList_some, List.cons_append, List.nil_append, List.zip_cons_cons, List.length_cons]
    refine ⟨by rw [k1], ?_⟩
    intro p hp
    rcases List.mem_cons.1 hp with rfl | hp
    · dsimp only
      rw [e1, e2]
      have hpos : 0 < lost pre + b + (received pre + a) := by omega
      generalize lost pre + b = x at hpos ⊢
      generalize received pre + a = y at hpos ⊢
      have q1 := Nat.div_mul_le_self (x * 100) (x + y)
      have q2 := Nat.lt_mul_div_succ (x * 100) hpos
      rw [Nat.mul_comm (x + y)] at q2
      rw [Nat.mul_comm x 100] at q1 q2 ⊢
      exact ⟨⟨q1, q2⟩, Nat.div_le_of_le_mul (by rw [Nat.add_mul]; omega)⟩
    · exact k2 p hp

def octets (l : List (Nat × Nat)) : Nat := (l.map Prod.snd).sum

theorem rates_pre {mark : Nat} (pre : List (Nat × Nat)) (ht : ∀ p ∈ pre, p.1 < mark + 1000000000) :
    ∀ (n th : Nat), n + octets pre < 4194304 → rates ⟨mark, n, th⟩ pre = ⟨mark, n + octets pre, th⟩ := by
  induction pre with
  | nil => intro n th _; rfl
  | cons p pre ih =>
    obtain ⟨t, v⟩ := p
    intro n th hn
    have h4 := ht (t, v) (List.mem_cons_self ..)
    simp only [octets, List.map_cons, List.sum_cons] at hn
    have hr : rate ⟨mark, n, th⟩ t v = ⟨mark, n + v, th⟩ := by
      unfold rate
      simp only []
      rw [if_pos (secs_lt.2 h4), Nat.mod_eq_of_lt (by omega)]
    show rates (rate ⟨mark, n, th⟩ t v) pre = _
    rw [hr, ih (fun q hq => ht q (List.mem_cons_of_mem _ hq)) (n + v) th (by simp only [octets]; omega)]
    simp only [octets, List.map_cons, List.sum_cons, Nat.add_assoc]

theorem rate_above {x y n : Nat} (h1 : 1000000000 * x ≤ 1024 * y) (h2 : n * 1024 < x) :
    n * 1000000000 < y := by
  have h3 : 1000000000 * (n * 1024) < 1000000000 * x := Nat.mul_lt_mul_of_pos_left h2 (by decide)
  have h4 : 1024 * (n * 1000000000) = 1000000000 * (n * 1024) := by
    rw [Nat.mul_left_comm, Nat.mul_left_comm 1000000000, Nat.mul_comm 1024]
  exact Nat.lt_of_mul_lt_mul_left (a := 1024) (h4 ▸ Nat.lt_of_lt_of_le h3 h1)

theorem rate_below {x y n : Nat} (h1 : 1024 * 1000 * y ≤ 1037 * 1000000000 * x) (h2 : x ≤ n * 1024) :
    y * 1000 ≤ n * 1000000000 * 1037 := by omega

theorem rate_value {now mark n : Nat} (h : mark + 1000000000 ≤ now) (hn : n < 4194304) :
    IsRate ((n * 1024 % 4294967296) / (secs now mark * 1024 + nsecs now mark / 1048576) % 4294967296) n (now - mark) := by
  rw [Nat.mod_eq_of_lt (a := n * 1024) (by omega)]
  rw [Nat.mod_eq_of_lt (Nat.lt_of_le_of_lt (Nat.div_le_self _ _) (by omega))]
  generalize hD : secs now mark * 1024 + nsecs now mark / 1048576 = D
  generalize hE : now - mark = E
  have hE1 : 1000000000 ≤ E := by omega
  have k1 : D * 1000000000 ≤ 1024 * E := by
    unfold secs nsecs at hD
    rw [hE] at hD
    omega
  have k2 : 1024 * 1000 * E ≤ 1037 * 1000000000 * D := by
    unfold secs nsecs at hD
    rw [hE] at hD
    omega
  have hD0 : 0 < D := by omega
  generalize hv : n * 1024 / D = v
  have q1 : v * D ≤ n * 1024 := by rw [← hv]; exact Nat.div_mul_le_self _ _
  have q2 : n * 1024 < (v + 1) * D := by
    rw [← hv, Nat.mul_comm _ D]
    exact Nat.lt_mul_div_succ (n * 1024) hD0
  constructor
  · have h1 := Nat.mul_le_mul_left (v + 1) k1
    have e1 : (v + 1) * (D * 1000000000) = 1000000000 * ((v + 1) * D) := by
      rw [← Nat.mul_assoc, Nat.mul_comm]
    have e2 : (v + 1) * (1024 * E) = 1024 * ((v + 1) * E) := by
      rw [← Nat.mul_assoc, Nat.mul_comm (v + 1), Nat.mul_assoc]
    rw [e1, e2] at h1
    exact rate_above h1 q2
  · have h1 := Nat.mul_le_mul_left v k2
    have e1 : v * (1024 * 1000 * E) = 1024 * 1000 * (v * E) := by
      rw [← Nat.mul_assoc, Nat.mul_comm v, Nat.mul_assoc]
    have e2 : v * (1037 * 1000000000 * D) = 1037 * 1000000000 * (v * D) := by
      rw [← Nat.mul_assoc, Nat.mul_comm v, Nat.mul_assoc]
    rw [e1, e2] at h1
    exact rate_below h1 q1

/-- The number shown as the throughput of a downlink TBF is the number of octets per second in the last
time span that ended with a report (rounded, or up to 3.7 % too large), and zero before there was one.
Missing from the full claim: it is shown as kbit/s, and keeps being shown when nothing is sent any more;
see `C89_fails`. -/
theorem C89_rate_partial (t0 : Nat) (l : List (Nat × Nat)) (gs : List (Nat × List (Nat × Nat)))
    (r : List (Nat × Nat)) (hp : Parts Prod.fst t0 l gs r)
    (hn : (∀ g ∈ gs, octets g.2 < 4194304) ∧ octets r < 4194304) (now : Nat) :
    (gs = [] → showKbps (rates ⟨t0, 0, 0⟩ l) now = 0) ∧
    (∀ gs' mark pre x, gs = gs' ++ [(mark, pre ++ [x])] →
      IsRate (showKbps (rates ⟨t0, 0, 0⟩ l) now) (octets pre + x.2) (x.1 - mark)) := by
  suffices h : ∀ th, (gs = [] → (rates ⟨t0, 0, th⟩ l).throughput = th) ∧
      (∀ gs' mark pre x, gs = gs' ++ [(mark, pre ++ [x])] →
        IsRate (rates ⟨t0, 0, th⟩ l).throughput (octets pre + x.2) (x.1 - mark)) from h 0
  induction hp with
  | @rest mark l h =>
    intro th
    rw [rates_pre l h 0 th (by omega)]
    refine ⟨fun _ => rfl, ?_⟩
    intro gs' mark pre x h
    cases gs' <;> cases h
  | @report mark pre l r x gs h1 h2 h3 ih =>
    obtain ⟨t, v⟩ := x
    intro th
    have hlen := hn.1 _ (List.mem_cons_self ..)
    have e1 : octets (pre ++ [(t, v)]) = octets pre + v := by simp [octets]
    dsimp only at h2 hlen
    rw [e1] at hlen
    have ih := ih ⟨fun g hg => hn.1 g (List.mem_cons_of_mem _ hg), hn.2⟩
    have hrun : rates ⟨mark, 0, th⟩ (pre ++ (t, v) :: l) =
        rates ⟨t, 0, ((octets pre + v) * 1024 % 4294967296) /
          (secs t mark * 1024 + nsecs t mark / 1048576) % 4294967296⟩ l := by
      unfold rates
      rw [List.foldl_append, List.foldl_cons]
      have := rates_pre pre h1 0 th (by omega)
      unfold rates at this
      rw [this, Nat.zero_add]
      congr 1
      unfold rate
      simp only []
      rw [if_neg (by rw [secs_lt]; omega), Nat.mod_eq_of_lt (a := octets pre + v) (by omega)]
    rw [hrun]
    refine ⟨nofun, ?_⟩
    intro gs' mark' pre' x' he
    cases gs' with
    | nil =>
      simp only [List.nil_append, List.cons.injEq, Prod.mk.injEq] at he
      obtain ⟨⟨rfl, h5⟩, rfl⟩ := he
      obtain ⟨rfl, h6⟩ := List.append_inj' h5 rfl
      cases h6
      dsimp only
      have := (ih (((octets pre + v) * 1024 % 4294967296) /
        (secs t mark * 1024 + nsecs t mark / 1048576) % 4294967296)).1 rfl
      dsimp only at this
      rw [this]
      exact rate_value h2 hlen
    | cons g gs' =>
      simp only [List.cons_append, List.cons.injEq] at he
      exact (ih _).2 gs' mark' pre' x' he.2

/-- A second in which 1000 octets were sent, in frames of 500. -/
def exRate : List (Nat × Nat) := [(5300000000, 500), (6000000000, 500)]

/-- Not so: 1000 octets in one second, 8 kbit/s, are shown as 1000 kbit/s, and still are an hour later.
And it is like this for every rate: what is shown, increased by one, is more than 125 times the rate. -/
theorem C89_fails :
    (Parts Prod.fst 5000000000 exRate [(5000000000, exRate)] [] ∧ IsKbps 8 (octets exRate) 1000000000 ∧
      showKbps (rates ⟨5000000000, 0, 0⟩ exRate) 6000000000 = 1000 ∧
      showKbps (rates ⟨5000000000, 0, 0⟩ exRate) 3606000000000 = 1000) ∧
    (∀ v n ns k, IsRate v n ns → IsKbps k n ns → 125 * k < v + 1) := by
  refine ⟨⟨.report (pre := [(5300000000, 500)]) ?_ (by decide) (.rest nofun), by unfold IsKbps; decide, by decide,
    by decide⟩, ?_⟩
  · intro y hy
    cases List.mem_singleton.1 hy
    decide
  · rintro v n ns k ⟨h1, -⟩ ⟨h2, -⟩
    have e1 : k * 1000 * ns = 1000 * (k * ns) := by rw [Nat.mul_comm k, Nat.mul_assoc]
    rw [e1] at h2
    have h3 : 125 * (k * ns) < (v + 1) * ns := by
      generalize k * ns = y at *
      generalize (v + 1) * ns = z at *
      omega
    rw [← Nat.mul_assoc] at h3
    exact Nat.lt_of_mul_lt_mul_right h3

/-- Three blocks in the first second and a half, then one after half a second more. -/
def exRssi : List (Nat × Int) := [(10300000000, -60), (10900000000, -71), (11500000000, -82), (12000000000, -90)]

example : Parts Prod.fst 10000000000 exRssi [(10000000000, exRssi.take 3)] (exRssi.drop 3) := by
  refine .report (pre := exRssi.take 2) ?_ (by decide) (.rest ?_) <;> decide

example : rssis ⟨10000000000, 0, 0⟩ exRssi = some (⟨11500000000, -90, 1⟩, [-71]) := by decide

/-- Acknowledgements: the second one is about nothing. -/
def exLoss : List (Nat × Nat × Nat) :=
  [(10300000000, 10, 2), (11900000000, 0, 0), (12000000000, 17, 1), (12500000000, 4, 0)]

example : Parts Prod.fst 10000000000 (exLoss.filter fun p => p.2.1 + p.2.2 ≠ 0)
    [(10000000000, [(10300000000, 10, 2), (12000000000, 17, 1)])] [(12500000000, 4, 0)] :=
  .report (pre := [(10300000000, 10, 2)]) (by decide) (by decide) (.rest (by decide))

example : losses ⟨10000000000, 0, 0⟩ exLoss = (⟨12000000000, 0, 4⟩, [10]) := by decide

end Verif.Reports
