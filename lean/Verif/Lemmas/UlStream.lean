import Verif.Lemmas.UlWindow
import Verif.Spec.UlStream
/-! Safety invariant of the closed uplink system. -/
namespace Verif.RlcUl

theorem mod_inj {sns a b : Nat} (hab : a ≤ b) (hb : b < a + sns) (h : a % sns = b % sns) : a = b := by
  have := Nat.sub_mod_eq_zero_of_mod_eq h.symm
  rw [Nat.mod_eq_of_lt (by omega)] at this
  omega

def idx (sns n : Nat) : Nat := n % sns % ring

theorem idx_inj {sns ws a b : Nat} (hc : LegalCfg sns ws) (hab : a ≤ b) (hb : b < a + ws)
    (h : idx sns a = idx sns b) : a = b := by
  unfold idx ring at h
  rcases hc with ⟨rfl, rfl⟩ | ⟨rfl, h1, h2⟩ <;> omega

theorem idx_inj' {sns ws q a b : Nat} (hc : LegalCfg sns ws) (ha : q ≤ a) (ha' : a < q + ws)
    (hb : q ≤ b) (hb' : b < q + ws) (h : idx sns a = idx sns b) : a = b := by
  rcases Nat.le_total a b with h' | h'
  · exact idx_inj hc h' (by omega) h
  · exact (idx_inj hc h' (by omega) h.symm).symm

theorem cfg_pos {sns ws} (hc : LegalCfg sns ws) : 0 < sns := by
  rcases hc with ⟨rfl, rfl⟩ | ⟨rfl, h1, h2⟩ <;> omega

theorem cfg_ws {sns ws} (hc : LegalCfg sns ws) : ws ≤ sns ∧ ws + ws ≤ sns := by
  rcases hc with ⟨rfl, rfl⟩ | ⟨rfl, h1, h2⟩ <;> omega

theorem raiseVqLoop_spec (fuel : Nat) : ∀ (w : Win) (c qa ra : Nat), 0 < w.sns →
    w.vq = qa % w.sns → w.vr = ra % w.sns → qa ≤ ra → ra < qa + w.sns → ra - qa ≤ fuel →
    ∃ m, qa + m ≤ ra ∧ (raiseVqLoop fuel w c).2 = c + m ∧
      (raiseVqLoop fuel w c).1 = { w with vq := (qa + m) % w.sns } ∧
      (∀ n, qa ≤ n → n < qa + m → w.vn (idx w.sns n) = .received) ∧
      (qa + m = ra ∨ w.vn (idx w.sns (qa + m)) ≠ .received) := by
  induction fuel with
  | zero =>
    intro w c qa ra hs hq hr h1 h2 h3
    exact ⟨0, by omega, rfl, by simp [raiseVqLoop, ← hq], by intro n _ _; omega, by omega⟩
  | succ fuel ih =>
    intro w c qa ra hs hq hr h1 h2 h3
    by_cases hcond : w.vq ≠ w.vr ∧ isRecv w.vn w.vq
    · have hne : qa ≠ ra := by
        intro e; subst e; exact hcond.1 (by rw [hq, hr])
      obtain ⟨m, a1, a2, a3, a4, a5⟩ :=
        ih { w with vq := w.modSns (w.vq + 1) } (c+1) (qa+1) ra hs
          (by simp [Win.modSns, hq]) hr (by omega) (by simp; omega) (by omega)
      have hrec : w.vn (idx w.sns qa) = .received := by
        have := hcond.2; simp only [isRecv, hq, beq_iff_eq] at this; exact this
      refine ⟨m+1, by omega, ?_, ?_, ?_, ?_⟩
      · simp only [raiseVqLoop, hcond, ne_eq, not_false_eq_true, and_self, if_true]
        rw [a2]; omega
      · simp only [raiseVqLoop, hcond, ne_eq, not_false_eq_true, and_self, if_true]
        rw [a3]; simp only [Win.mk.injEq, true_and]
        refine ⟨?_, trivial⟩
        rw [show qa + 1 + m = qa + (m+1) by omega]
      · intro n hn1 hn2
        by_cases e : n = qa
        · subst e; exact hrec
        · exact a4 n (by omega) (by omega)
      · rcases a5 with a5 | a5
        · left; omega
        · right; rw [show qa + (m+1) = qa + 1 + m by omega]; exact a5
    · refine ⟨0, by omega, ?_, ?_, by intro n _ _; omega, ?_⟩
      · simp only [raiseVqLoop, hcond, if_false]; rfl
      · simp only [raiseVqLoop, hcond, if_false, Nat.add_zero, ← hq]
      · by_cases e : qa = ra
        · left; omega
        · right
          intro hrec
          apply hcond
          refine ⟨?_, ?_⟩
          · rw [hq, hr]; intro h; exact e (mod_inj h1 h2 h)
          · simp only [isRecv, hq, beq_iff_eq]; exact hrec

/-- Safety invariant of the receiver relative to the sender position. `q`, `r` are the
absolute values of V(Q) and V(R). -/
structure Inv {α} (f : Nat → α) (sns ws va vs : Nat) (s : Rx α) (q r : Nat) : Prop where
  hsns : s.win.sns = sns
  hws : s.win.ws = ws
  hq : s.win.vq = q % sns
  hr : s.win.vr = r % sns
  qr : q ≤ r
  rq : r ≤ q + ws
  rvs : r ≤ vs
  vsva : vs ≤ va + ws
  vavs : va ≤ vs
  out : s.out = (List.range q).map (fun n => some (f n))
  data : ∀ n, q ≤ n → n < r → s.win.vn (idx sns n) = .received → s.buf (idx sns n) = some (f n)
  acked : ∀ n, q ≤ n → n < va → n < r ∧ s.win.vn (idx sns n) = .received

theorem inWindow_iff {α} {f : Nat → α} {sns ws va vs : Nat} {s : Rx α} {q r : Nat}
    (hc : LegalCfg sns ws) (h : Inv f sns ws va vs s q r) {n : Nat} (h1 : va ≤ n) (h2 : n < vs) :
    s.win.isInWindow (n % sns) = true ↔ q ≤ n ∧ n < q + ws := by
  have e1 := h.hsns; have e2 := h.hws; have e3 := h.hq
  have a := h.qr; have b := h.rq; have c := h.rvs; have d := h.vsva; have e := h.vavs
  have hva : va ≤ r := by
    rcases Nat.lt_or_ge q va with hh | hh
    · have := (h.acked (va-1) (by omega) (by omega)).1; omega
    · omega
  simp only [Win.isInWindow, Win.modSns, e1, e2, e3, decide_eq_true_eq]
  rcases hc with ⟨rfl, rfl⟩ | ⟨rfl, h1', h2'⟩ <;> omega

theorem oneBlock_inv {α} {f : Nat → α} {sns ws va vs : Nat} {s : Rx α} {q r : Nat}
    (hc : LegalCfg sns ws) (h : Inv f sns ws va vs s q r) (a : Arrival α)
    (ha : ∃ n, va ≤ n ∧ n < vs ∧ a.bsn = n % sns ∧ (a.kind = .ok → a.data = f n)) :
    ∃ r', r ≤ r' ∧ Inv f sns ws va vs (s.oneBlock a).1 q r' := by
  obtain ⟨n, hn1, hn2, hb, hd⟩ := ha
  have hwin := inWindow_iff hc h hn1 hn2
  by_cases hin : s.win.isInWindow a.bsn
  rotate_left
  · exact ⟨r, Nat.le_refl _, by simp [Rx.oneBlock, hin]; exact h⟩
  by_cases hrec : isRecv s.win.vn a.bsn
  · exact ⟨r, Nat.le_refl _, by simp [Rx.oneBlock, hin, hrec]; exact h⟩
  rw [hb] at hin
  have hnw := hwin.1 hin
  rw [← hb] at hin
  have hnr : s.win.vn (idx sns n) ≠ .received := by
    intro h'; apply hrec; simp only [isRecv, hb, beq_iff_eq]; exact h'
  have hs1 : ∀ m, q ≤ m → m < q + ws → idx sns m = idx sns n → m = n :=
    fun m m1 m2 e => idx_inj' hc m1 m2 hnw.1 hnw.2 e
  -- the store after writing the block
  have hbuf : ∀ m, q ≤ m → m < q + ws → m ≠ n →
      store s.buf a.bsn a.data (idx sns m) = s.buf (idx sns m) := by
    intro m m1 m2 m3
    simp only [store]
    rw [if_neg]
    intro e; rw [hb] at e; exact m3 (hs1 m m1 m2 e)
  have hbufn : store s.buf a.bsn a.data (idx sns n) = some a.data := by
    simp only [store]; rw [if_pos]; rw [hb]; rfl
  have hq' := h.qr; have hrq' := h.rq
  cases hk : a.kind with
  | partialSeg =>
    refine ⟨r, Nat.le_refl _, ?_⟩
    have e : (s.oneBlock a).1 = { s with buf := store s.buf a.bsn a.data } := by
      simp [Rx.oneBlock, hin, hrec, hk]
    rw [e]
    exact { h with
      data := fun m m1 m2 m3 => by
        have : m ≠ n := fun e => hnr (e ▸ m3)
        show store s.buf a.bsn a.data (idx sns m) = _
        rw [hbuf m m1 (by omega) this]; exact h.data m m1 m2 m3 }
  | rejected =>
    refine ⟨r, Nat.le_refl _, ?_⟩
    have e : (s.oneBlock a).1 = { s with buf := store s.buf a.bsn a.data, win := s.win.invalidateBsn a.bsn } := by
      simp [Rx.oneBlock, hin, hrec, hk]
    rw [e]
    have hvn : ∀ i, (s.win.invalidateBsn a.bsn).vn i = if i = idx sns n then .missing else s.win.vn i := by
      intro i; simp only [Win.invalidateBsn, mark_apply, hb]; rfl
    exact { h with
      data := fun m m1 m2 m3 => by
        have : m ≠ n := by
          intro e
          rw [show ({ s with buf := store s.buf a.bsn a.data, win := s.win.invalidateBsn a.bsn } : Rx α).win.vn
            = (s.win.invalidateBsn a.bsn).vn from rfl, hvn, e, if_pos rfl] at m3
          simp at m3
        show store s.buf a.bsn a.data (idx sns m) = _
        rw [hbuf m m1 (by omega) this]
        refine h.data m m1 m2 ?_
        have m3' : (s.win.invalidateBsn a.bsn).vn (idx sns m) = .received := m3
        rw [hvn, if_neg (fun e => this (hs1 m m1 (by omega) e))] at m3'
        exact m3'
      acked := fun m m1 m2 => by
        obtain ⟨x, y⟩ := h.acked m m1 m2
        refine ⟨x, ?_⟩
        show (s.win.invalidateBsn a.bsn).vn (idx sns m) = _
        rw [hvn, if_neg]; exact y
        intro e; rw [e] at y; exact hnr y }
  | ok =>
    have e : (s.oneBlock a).1 = { s with buf := store s.buf a.bsn a.data, win := s.win.receiveBsn a.bsn } := by
      simp [Rx.oneBlock, hin, hrec, hk]
    rw [e]
    have hdata := hd hk
    have hwss := cfg_ws hc
    -- window after mark
    let w1 : Win := { s.win with vn := mark s.win.vn a.bsn .received }
    have hw1 : ∀ i, w1.vn i = if i = idx sns n then .received else s.win.vn i := by
      intro i; show mark s.win.vn a.bsn .received i = _
      rw [mark_apply, hb]; rfl
    have hrcv : s.win.receiveBsn a.bsn = w1.raiseVr a.bsn := rfl
    have hoff : w1.modSns (a.bsn + 1 + w1.sns - w1.vr) = (n + 1 + sns - r % sns) % sns := by
      show (a.bsn + 1 + s.win.sns - s.win.vr) % s.win.sns = _
      rw [h.hsns, h.hr, hb]
      have : r % sns < sns := Nat.mod_lt _ (cfg_pos hc)
      rcases hc with ⟨rfl, rfl⟩ | ⟨rfl, h1', h2'⟩ <;> omega
    have hw1sns : w1.sns = sns := h.hsns
    have nomove : (n + 1 ≤ r ∨ ¬ ((n + 1 + sns - r % sns) % sns < sns / 2)) →
        Inv f sns ws va vs { s with buf := store s.buf a.bsn a.data, win := w1 } q r := by
      intro _
      exact { h with
        data := fun m m1 m2 m3 => by
          show store s.buf a.bsn a.data (idx sns m) = _
          by_cases e : m = n
          · rw [e, hbufn, hdata]
          · rw [hbuf m m1 (by omega) e]
            refine h.data m m1 m2 ?_
            have m3' : w1.vn (idx sns m) = .received := m3
            rwa [hw1, if_neg (fun e' => e (hs1 m m1 (by omega) e'))] at m3'
        acked := fun m m1 m2 => by
          obtain ⟨x, y⟩ := h.acked m m1 m2
          refine ⟨x, ?_⟩
          show w1.vn (idx sns m) = _
          rw [hw1]; split <;> first | rfl | exact y }
    by_cases hlow : n + 1 ≤ r
    · -- retransmission of a block below V(R): offset is large or zero
      refine ⟨r, Nat.le_refl _, ?_⟩
      have hz : (n + 1 + sns - r % sns) % sns = 0 ∨ ¬ ((n + 1 + sns - r % sns) % sns < sns / 2) := by
        rcases hc with ⟨rfl, rfl⟩ | ⟨rfl, h1', h2'⟩ <;> omega
      have : s.win.receiveBsn a.bsn = w1 := by
        rw [hrcv]
        simp only [Win.raiseVr]; rw [hoff, hw1sns]
        rcases hz with hz | hz
        · rw [hz]; simp [raiseLoop]
        · rw [if_neg hz]
      rw [this]
      exact nomove (Or.inl hlow)
    · by_cases hoff2 : (n + 1 + sns - r % sns) % sns < sns / 2
      rotate_left
      · refine ⟨r, Nat.le_refl _, ?_⟩
        have : s.win.receiveBsn a.bsn = w1 := by
          rw [hrcv]
          simp only [Win.raiseVr]; rw [hoff, hw1sns]
          rw [if_neg hoff2]
        rw [this]
        exact nomove (Or.inr hoff2)
      · refine ⟨n + 1, by omega, ?_⟩
        have hk' : (n + 1 + sns - r % sns) % sns = n + 1 - r := by
          rcases hc with ⟨rfl, rfl⟩ | ⟨rfl, h1', h2'⟩ <;> omega
        have : s.win.receiveBsn a.bsn = raiseLoop (n + 1 - r) w1 := by
          rw [hrcv]
          simp only [Win.raiseVr]; rw [hoff, hw1sns]
          rw [if_pos hoff2, hk']
        rw [this]
        have hw1ws : w1.ws = ws := h.hws
        have hw1vr : w1.vr = r % sns := h.hr
        obtain ⟨b1, b2, b3, b4, b5⟩ := raiseLoop_spec (n + 1 - r) w1 r (by rw [hw1sns]; exact cfg_pos hc)
          (by rw [hw1vr, hw1sns]) (by rw [hw1sns, hw1ws]; exact hwss.1)
        rw [hw1sns] at b4 b5
        rw [hw1ws] at b5
        refine { hsns := by rw [b1]; exact hw1sns, hws := by rw [b2]; exact hw1ws,
                 hq := by rw [b3]; exact h.hq, hr := ?_, qr := by omega, rq := by omega,
                 rvs := by omega, vsva := h.vsva, vavs := h.vavs, out := h.out,
                 data := ?_, acked := ?_ }
        · rw [b4]; congr 1; omega
        · intro m m1 m2 m3
          show store s.buf a.bsn a.data (idx sns m) = _
          by_cases e : m = n
          · rw [e, hbufn, hdata]
          · rw [hbuf m m1 (by omega) e]
            have m3' := (b5 (idx sns m)).1 m3
            have hmr : m < r := by
              rcases Nat.lt_or_ge m r with h' | h'
              · exact h'
              · exfalso
                refine m3'.2.2 (m - r) (by omega) ?_
                rw [show r + (m - r) = m by omega]; rfl
            refine h.data m m1 hmr ?_
            have := m3'.1
            rwa [hw1, if_neg (fun e' => e (hs1 m m1 (by omega) e'))] at this
        · intro m m1 m2
          obtain ⟨x, y⟩ := h.acked m m1 m2
          refine ⟨by omega, ?_⟩
          show (raiseLoop (n + 1 - r) w1).vn (idx sns m) = _
          refine (b5 (idx sns m)).2 ⟨?_, ?_, ?_⟩
          · rw [hw1]; split <;> first | rfl | exact y
          · intro j hj
            unfold idx ring
            rcases hc with ⟨rfl, rfl⟩ | ⟨rfl, h1', h2'⟩ <;> omega
          · intro j hj e
            have := idx_inj' hc m1 (by omega) (show q ≤ r + j by omega) (by omega) e
            omega

theorem flush_inv {α} {f : Nat → α} {sns ws va vs : Nat} {s : Rx α} {q r : Nat}
    (hc : LegalCfg sns ws) (h : Inv f sns ws va vs s q r) :
    ∃ q', Inv f sns ws va vs s.flush q' r ∧ q ≤ q' ∧
      (q' = r ∨ s.win.vn (idx sns q') ≠ .received) ∧
      (∀ n, q ≤ n → n < q' → s.win.vn (idx sns n) = .received) ∧ s.flush.win.vn = s.win.vn := by
  have hpos := cfg_pos hc
  have hw := cfg_ws hc
  obtain ⟨m, m1, m2, m3, m4, m5⟩ := raiseVqLoop_spec s.win.sns s.win 0 q r
    (by rw [h.hsns]; exact hpos) (by rw [h.hsns]; exact h.hq) (by rw [h.hsns]; exact h.hr) h.qr
    (by rw [h.hsns]; have := h.rq; omega) (by rw [h.hsns]; have := h.rq; omega)
  rw [h.hsns] at m2 m3 m4 m5
  refine ⟨q + m, ?_, by omega, m5, m4, ?_⟩
  rotate_left
  · simp only [Rx.flush, Win.raiseVq, h.hsns, m3]
  have e : s.flush = { s with
      win := { s.win with vq := (q + m) % sns },
      out := s.out ++ (List.range m).map fun i => s.buf (s.win.modSns (s.win.vq + i) % ring) } := by
    simp only [Rx.flush, Win.raiseVq, h.hsns, m2, m3, Nat.zero_add]
  rw [e]
  have hrq := h.rq
  refine { hsns := h.hsns, hws := h.hws, hq := rfl, hr := h.hr, qr := m1, rq := by omega,
           rvs := h.rvs, vsva := h.vsva, vavs := h.vavs, out := ?_, data := ?_, acked := ?_ }
  · show s.out ++ _ = _
    rw [h.out, List.range_add, List.map_append, List.map_map]
    congr 1
    apply List.map_congr_left
    intro i hi
    have hi' : i < m := List.mem_range.1 hi
    have : s.win.modSns (s.win.vq + i) % ring = idx sns (q + i) := by
      simp only [Win.modSns, h.hsns, h.hq, idx, Nat.mod_add_mod]
    rw [this]
    exact h.data (q + i) (by omega) (by omega) (m4 (q + i) (by omega) (by omega))
  · intro n n1 n2 n3
    exact h.data n (by omega) n2 n3
  · intro n n1 n2
    exact h.acked n (by omega) n2

theorem rcvBlocks_inv {α} {f : Nat → α} {sns ws va vs : Nat}
    (hc : LegalCfg sns ws) (blocks : List (Arrival α)) : ∀ (s : Rx α) (q r : Nat),
    Inv f sns ws va vs s q r →
    (∀ b ∈ blocks, ∃ n, va ≤ n ∧ n < vs ∧ b.bsn = n % sns ∧ (b.kind = .ok → b.data = f n)) →
    ∃ q' r', Inv f sns ws va vs (s.rcvBlocks blocks) q' r' := by
  induction blocks with
  | nil => intro s q r h _
           obtain ⟨q', h', _⟩ := flush_inv hc h
           exact ⟨q', r, h'⟩
  | cons a rest ih =>
    intro s q r h hb
    obtain ⟨r', _, h'⟩ := oneBlock_inv hc h a (hb a (List.mem_cons_self ..))
    rcases hres : s.oneBlock a with ⟨s', b⟩
    rw [hres] at h'
    cases b with
    | true => exact ⟨q, r', by simp [Rx.rcvBlocks, hres]; exact h'⟩
    | false =>
      obtain ⟨q2, r2, h2⟩ := ih s' q r' h' (fun b hb' => hb b (List.mem_cons_of_mem _ hb'))
      exact ⟨q2, r2, by simp [Rx.rcvBlocks, hres]; exact h2⟩

theorem reach_inv {α} {f : Nat → α} {sns ws : Nat} (hc : LegalCfg sns ws) {s : Sys α}
    (h : Reach f sns ws s) : ∃ q r, Inv f sns ws s.va s.vs s.rx q r := by
  induction h with
  | start =>
    refine ⟨0, 0, ?_⟩
    refine { hsns := rfl, hws := rfl, hq := by simp [Rx.init, Win.init], hr := by simp [Rx.init, Win.init],
             qr := Nat.le_refl _, rq := by omega, rvs := Nat.le_refl _, vsva := by simp, vavs := Nat.le_refl _,
             out := rfl, data := by intro n _ h; omega, acked := by intro n _ h; simp at h }
  | @step s t _ hst ih =>
    obtain ⟨q, r, hi⟩ := ih
    cases hst with
    | sendNew hlt =>
      exact ⟨q, r, { hi with rvs := by have := hi.rvs; simp; omega
                             vsva := by simp; omega
                             vavs := by have := hi.vavs; simp; omega }⟩
    | acked a hle ha hrep =>
      · refine ⟨q, r, { hi with vsva := by have := hi.vsva; simp; omega
                                vavs := ha
                                acked := ?_ }⟩
        intro n n1 n2
        have n2 : n < a := n2
        by_cases hn : n < s.va
        · exact hi.acked n n1 hn
        · rcases hrep n (by omega) n2 with h' | h'
          · rw [hi.out] at h'; simp at h'; omega
          · obtain ⟨i, hi1, hi2, hi3⟩ := h'
            have hrec : s.rx.win.vn (idx sns n) = .received := by
              simp only [isRecv, beq_iff_eq] at hi3; exact hi3
            refine ⟨?_, hrec⟩
            have e4 := hi.hr; have := hi.qr; have := hi.rq; have := hi.vsva; have := hi.rvs
            have hva : s.va ≤ r := by
              rcases Nat.lt_or_ge q s.va with hh | hh
              · have := (hi.acked (s.va-1) (by omega) (by omega)).1; omega
              · omega
            rw [e4] at hi2
            have ha' : a ≤ s.vs := ha
            rcases hc with ⟨rfl, rfl⟩ | ⟨rfl, h1', h2'⟩ <;> omega
    | radio blocks hb =>
      obtain ⟨q', r', h'⟩ := rcvBlocks_inv hc blocks s.rx q r hi hb
      exact ⟨q', r', h'⟩

end Verif.RlcUl
