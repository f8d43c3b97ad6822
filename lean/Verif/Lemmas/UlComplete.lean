import Verif.Lemmas.UlStream
/-! Exact invariant: the state ring is exactly the set of arrived blocks. -/
namespace Verif.RlcUl

theorem GoodCfg.legal {sns ws} (h : GoodCfg sns ws) : LegalCfg sns ws := by
  rcases h with h | ⟨a, b, c⟩
  · exact Or.inl h
  · exact Or.inr ⟨a, b, by omega⟩

/-- number of distinct ring entries in use -/
def capOf (sns : Nat) : Nat := if sns = 128 then 128 else 1024

/-- Exact invariant; block numbers are shifted by 2048 so that numbers below zero
can be written. -/
structure Exact (sns ws : Nat) (vn : Nat → St) (got : Nat → Prop) (q r : Nat) : Prop where
  e1 : ∀ m, r + 2048 ≤ m + ws → m < r + 2048 →
        (vn (idx sns m) = .received ↔ 2048 ≤ m ∧ got (m - 2048))
  e2 : ∀ m, r + 2048 ≤ m → m + ws < r + 2048 + capOf sns → vn (idx sns m) ≠ .received
  e3 : ∀ n, got n → n < r
  e4 : ∀ n, n < q → got n
  e5 : r = 0 ∨ got (r - 1)

theorem idx_shift (sns ws m : Nat) (hc : LegalCfg sns ws) : idx sns (m + 2048) = idx sns m := by
  unfold idx ring
  rcases hc with ⟨rfl, rfl⟩ | ⟨rfl, h1, h2⟩ <;> omega

theorem isRecv_iff {α} {f : Nat → α} {sns ws va vs : Nat} {s : Rx α} {q r n : Nat} {got : Nat → Prop}
    (hc : GoodCfg sns ws) (h : Inv f sns ws va vs s q r) (hE : Exact sns ws s.win.vn got q r)
    (h1 : q ≤ n) (h2 : n < q + ws) :
    s.win.vn (idx sns n) = .received ↔ got n := by
  have a := h.qr; have b := h.rq
  rw [← idx_shift sns ws n hc.legal]
  by_cases hn : n < r
  · rw [hE.e1 (n+2048) (by omega) (by omega)]
    simp
  · constructor
    · intro h'
      refine absurd h' (hE.e2 (n+2048) (by omega) ?_)
      unfold capOf
      rcases hc with ⟨rfl, rfl⟩ | ⟨rfl, h3, h4⟩ <;> simp <;> omega
    · intro h'; have := hE.e3 n h'; omega

theorem oneBlock_exact {α} {f : Nat → α} {sns ws va vs : Nat} {s : Rx α} {q r : Nat}
    {got : Nat → Prop}
    (hc : GoodCfg sns ws) (h : Inv f sns ws va vs s q r) (hE : Exact sns ws s.win.vn got q r)
    (a : Arrival α) (n : Nat) (hn1 : va ≤ n) (hn2 : n < vs) (hb : a.bsn = n % sns)
    (hd : a.kind = .ok → a.data = f n) (hg : sns = 128 → a.bsn ≠ (s.win.vr + 63) % 128) :
    ∃ r', r ≤ r' ∧ Inv f sns ws va vs (s.oneBlock a).1 q r' ∧
      Exact sns ws (s.oneBlock a).1.win.vn
        (fun m => got m ∨ (a.kind = .ok ∧ m = n ∧ n < q + ws)) q r' := by
  obtain ⟨r', hr', hI⟩ := oneBlock_inv hc.legal h a ⟨n, hn1, hn2, hb, hd⟩
  refine ⟨r', hr', hI, ?_⟩
  have hwin := inWindow_iff hc.legal h hn1 hn2
  -- the record after the step
  have same : (a.kind = .ok → n < q + ws → got n) →
      (fun m => got m ∨ (a.kind = .ok ∧ m = n ∧ n < q + ws)) = got := by
    intro h'; funext m; apply propext
    constructor
    · rintro (h'' | ⟨x, rfl, y⟩)
      · exact h''
      · exact h' x y
    · exact Or.inl
  have rsame : (s.oneBlock a).1.win.vr = s.win.vr → r' = r := by
    intro e
    have e1 := hI.hr; have e2 := h.hr
    rw [e, e2] at e1
    have := hI.rq; have := h.qr; have := h.rq
    have hw := cfg_ws hc.legal
    have hwp : 0 < ws := by rcases hc with ⟨_, rfl⟩ | ⟨_, h3, _⟩ <;> omega
    exact (mod_inj hr' (by omega) e1).symm
  by_cases hin : s.win.isInWindow a.bsn
  rotate_left
  · have e : (s.oneBlock a).1 = s := by simp [Rx.oneBlock, hin]
    rw [rsame (by rw [e]), e, same]
    · exact hE
    · intro _ h2'
      rw [hb, hwin] at hin
      exact hE.e4 n (by omega)
  have hnw : q ≤ n ∧ n < q + ws := by rw [hb] at hin; exact hwin.1 hin
  have hrecv : isRecv s.win.vn a.bsn = true ↔ got n := by
    rw [← isRecv_iff hc h hE hnw.1 hnw.2]
    simp only [isRecv, hb, beq_iff_eq, idx]
  by_cases hrec : isRecv s.win.vn a.bsn
  · have e : (s.oneBlock a).1 = s := by simp [Rx.oneBlock, hin, hrec]
    rw [rsame (by rw [e]), e, same]
    · exact hE
    · intro _ _; exact hrecv.1 hrec
  have hng : ¬ got n := fun h' => hrec (hrecv.2 h')
  have hq1 := h.qr; have hq2 := h.rq
  cases hk : a.kind with
  | partialSeg =>
    have e : (s.oneBlock a).1 = { s with buf := store s.buf a.bsn a.data } := by
      simp [Rx.oneBlock, hin, hrec, hk]
    rw [rsame (by rw [e])]
    rw [e]
    simp only [hk] at same
    rw [same (by simp)]
    exact hE
  | rejected =>
    have e : (s.oneBlock a).1 = { s with buf := store s.buf a.bsn a.data, win := s.win.invalidateBsn a.bsn } := by
      simp [Rx.oneBlock, hin, hrec, hk]
    rw [rsame (by rw [e]; rfl)]
    rw [e]
    simp only [hk] at same
    rw [same (by simp)]
    have hvn : ∀ i, (s.win.invalidateBsn a.bsn).vn i = if i = idx sns n then .missing else s.win.vn i := by
      intro i; simp only [Win.invalidateBsn, mark_apply, hb]; rfl
    have hne : s.win.vn (idx sns n) ≠ .received := fun h' =>
      hng ((isRecv_iff hc h hE hnw.1 hnw.2).1 h')
    have heq : ∀ i, (s.win.invalidateBsn a.bsn).vn i = .received ↔ s.win.vn i = .received := by
      intro i; rw [hvn]; split
      · rename_i e'; subst e'; simp [hne]
      · rfl
    exact { e1 := fun m m1 m2 => by show (s.win.invalidateBsn a.bsn).vn _ = _ ↔ _
                                    rw [heq]; exact hE.e1 m m1 m2
            e2 := fun m m1 m2 => by show ¬ (s.win.invalidateBsn a.bsn).vn _ = _
                                    rw [heq]; exact hE.e2 m m1 m2
            e3 := hE.e3, e4 := hE.e4, e5 := hE.e5 }
  | ok =>
    have e : (s.oneBlock a).1 = { s with buf := store s.buf a.bsn a.data, win := s.win.receiveBsn a.bsn } := by
      simp [Rx.oneBlock, hin, hrec, hk]
    let w1 : Win := { s.win with vn := mark s.win.vn a.bsn .received }
    have hw1 : ∀ i, w1.vn i = if i = idx sns n then .received else s.win.vn i := by
      intro i; show mark s.win.vn a.bsn .received i = _
      rw [mark_apply, hb]; rfl
    have hw1' : ∀ i, w1.vn i = .received ↔ (i = idx sns n ∨ s.win.vn i = .received) := by
      intro i; rw [hw1]; split <;> simp [*]
    have hrcv : s.win.receiveBsn a.bsn = w1.raiseVr a.bsn := rfl
    have hoff : w1.modSns (a.bsn + 1 + w1.sns - w1.vr) = (n + 1 + sns - r % sns) % sns := by
      show (a.bsn + 1 + s.win.sns - s.win.vr) % s.win.sns = _
      rw [h.hsns, h.hr, hb]
      rcases hc with ⟨rfl, rfl⟩ | ⟨rfl, h1', h2'⟩ <;> omega
    have hw1sns : w1.sns = sns := h.hsns
    have hw1ws : w1.ws = ws := h.hws
    have hw1vr : w1.vr = r % sns := h.hr
    have gotn : ∀ m, (got m ∨ (Kind.ok = Kind.ok ∧ m = n ∧ n < q + ws)) ↔ (got m ∨ m = n) := by
      intro m; constructor
      · rintro (x | ⟨_, x, _⟩)
        · exact Or.inl x
        · exact Or.inr x
      · rintro (x | x)
        · exact Or.inl x
        · exact Or.inr ⟨rfl, x, hnw.2⟩
    rw [← idx_shift sns ws n hc.legal] at hw1'
    by_cases hlow : n < r
    · have hz : (n + 1 + sns - r % sns) % sns = 0 ∨ ¬ ((n + 1 + sns - r % sns) % sns < sns / 2) := by
        rcases hc with ⟨rfl, rfl⟩ | ⟨rfl, h1', h2'⟩ <;> omega
      have hwe : s.win.receiveBsn a.bsn = w1 := by
        rw [hrcv]
        simp only [Win.raiseVr]; rw [hoff, hw1sns]
        rcases hz with hz | hz
        · rw [hz]; simp [raiseLoop]
        · rw [if_neg hz]
      rw [rsame (by rw [e, hwe])]
      rw [e, hwe]
      refine { e1 := ?_, e2 := ?_, e3 := ?_, e4 := ?_, e5 := ?_ }
      · intro m m1 m2
        show w1.vn _ = _ ↔ _
        rw [hw1', gotn, hE.e1 m m1 m2]
        by_cases hmn : m = n + 2048
        · subst hmn; simp
        · have h1 : idx sns m ≠ idx sns (n + 2048) := by
            unfold idx ring
            rcases hc with ⟨rfl, rfl⟩ | ⟨rfl, h1', h2'⟩ <;> omega
          simp only [h1, false_or]
          constructor
          · rintro ⟨x, y⟩; exact ⟨x, Or.inl y⟩
          · rintro ⟨x, y | y⟩
            · exact ⟨x, y⟩
            · omega
      · intro m m1 m2
        show ¬ w1.vn _ = _
        rw [hw1']
        rintro (x | x)
        · unfold idx ring at x; unfold capOf at m2
          rcases hc with ⟨rfl, rfl⟩ | ⟨rfl, h1', h2'⟩ <;> simp at m2 <;> omega
        · exact hE.e2 m m1 m2 x
      · intro m hm
        rw [gotn] at hm
        rcases hm with x | x
        · exact hE.e3 m x
        · omega
      · intro m hm; exact Or.inl (hE.e4 m hm)
      · rcases hE.e5 with x | x
        · exact Or.inl x
        · exact Or.inr (Or.inl x)
    · have hnr : n + 1 - r ≤ ws := by omega
      have hoff2 : (n + 1 + sns - r % sns) % sns < sns / 2 := by
        have := h.hr
        rcases hc with ⟨rfl, rfl⟩ | ⟨rfl, h1', h2'⟩
        · have := hg rfl; omega
        · omega
      have hk' : (n + 1 + sns - r % sns) % sns = n + 1 - r := by
        rcases hc with ⟨rfl, rfl⟩ | ⟨rfl, h1', h2'⟩ <;> omega
      have hwe : s.win.receiveBsn a.bsn = raiseLoop (n + 1 - r) w1 := by
        rw [hrcv]
        simp only [Win.raiseVr]; rw [hoff, hw1sns]
        rw [if_pos hoff2, hk']
      have hwss := cfg_ws hc.legal
      obtain ⟨b1, b2, b3, b4, b5⟩ := raiseLoop_spec (n + 1 - r) w1 r
        (by rw [hw1sns]; exact cfg_pos hc.legal)
        (by rw [hw1vr, hw1sns]) (by rw [hw1sns, hw1ws]; exact hwss.1)
      rw [hw1sns] at b4 b5
      rw [hw1ws] at b5
      have hr'' : r' = n + 1 := by
        have e1 := hI.hr
        rw [e, hwe] at e1
        have e1' : (raiseLoop (n + 1 - r) w1).vr = r' % sns := e1
        rw [b4, show r + (n + 1 - r) = n + 1 by omega] at e1'
        have := hI.rq
        rcases Nat.le_total (n+1) r' with h' | h'
        · exact (mod_inj h' (by omega) e1').symm
        · exact mod_inj h' (by omega) e1'.symm
      rw [hr'', e, hwe]
      refine { e1 := ?_, e2 := ?_, e3 := ?_, e4 := ?_, e5 := ?_ }
      · intro m m1 m2
        show (raiseLoop (n + 1 - r) w1).vn _ = _ ↔ _
        rw [b5, hw1', gotn]
        by_cases hmn : m = n + 2048
        · subst hmn
          simp only [true_or, true_and, Nat.add_sub_cancel, or_true, and_true]
          constructor
          · intro _; omega
          · intro _
            refine ⟨?_, ?_⟩
            · intro j hj
              unfold idx ring
              rcases hc with ⟨rfl, rfl⟩ | ⟨rfl, h1', h2'⟩ <;> omega
            · intro j hj
              unfold idx ring
              rcases hc with ⟨rfl, rfl⟩ | ⟨rfl, h1', h2'⟩ <;> omega
        · have hne : idx sns m ≠ idx sns (n + 2048) := by
            unfold idx ring
            rcases hc with ⟨rfl, rfl⟩ | ⟨rfl, h1', h2'⟩ <;> omega
          simp only [hne, false_or]
          by_cases hmr : m < r + 2048
          · rw [hE.e1 m (by omega) hmr]
            constructor
            · rintro ⟨⟨x, y⟩, _, _⟩; exact ⟨x, Or.inl y⟩
            · rintro ⟨x, y | y⟩
              · refine ⟨⟨x, y⟩, ?_, ?_⟩
                · intro j hj
                  unfold idx ring
                  rcases hc with ⟨rfl, rfl⟩ | ⟨rfl, h1', h2'⟩ <;> omega
                · intro j hj
                  unfold idx ring
                  rcases hc with ⟨rfl, rfl⟩ | ⟨rfl, h1', h2'⟩ <;> omega
              · omega
          · constructor
            · rintro ⟨_, _, z⟩
              exfalso
              refine z (m - 2048 - r) (by omega) ?_
              rw [show r + (m - 2048 - r) = m - 2048 by omega]
              have := idx_shift sns ws (m - 2048) hc.legal
              rw [show m - 2048 + 2048 = m by omega] at this
              rw [this]; rfl
            · rintro ⟨x, y | y⟩
              · have := hE.e3 _ y; omega
              · omega
      · intro m m1 m2
        show ¬ (raiseLoop (n + 1 - r) w1).vn _ = _
        rw [b5, hw1']
        rintro ⟨x | x, y, _⟩
        · unfold idx ring at x; unfold capOf at m2
          rcases hc with ⟨rfl, rfl⟩ | ⟨rfl, h1', h2'⟩ <;> simp at m2 <;> omega
        · by_cases hm : m + ws < r + 2048 + capOf sns
          · exact hE.e2 m (by omega) hm x
          · refine y (m + ws - (r + 2048 + capOf sns)) (by omega) ?_
            unfold idx ring; unfold capOf at hm m2 ⊢
            rcases hc with ⟨rfl, rfl⟩ | ⟨rfl, h1', h2'⟩ <;> simp at m2 hm ⊢ <;> omega
      · intro m hm
        rw [gotn] at hm
        rcases hm with x | x
        · have := hE.e3 m x; omega
        · omega
      · intro m hm; exact Or.inl (hE.e4 m hm)
      · exact Or.inr (Or.inr ⟨rfl, by omega, hnw.2⟩)

theorem flush_exact {α} {f : Nat → α} {sns ws va vs : Nat} {s : Rx α} {q r : Nat}
    {got : Nat → Prop} (hc : GoodCfg sns ws) (h : Inv f sns ws va vs s q r)
    (hE : Exact sns ws s.win.vn got q r) :
    ∃ q', Inv f sns ws va vs s.flush q' r ∧ Exact sns ws s.flush.win.vn got q' r ∧ q ≤ q' ∧
      (q' = r ∨ s.flush.win.vn (idx sns q') ≠ .received) := by
  obtain ⟨q', h1, h2, h3, h4, h5⟩ := flush_inv hc.legal h
  refine ⟨q', h1, ?_, h2, by rw [h5]; exact h3⟩
  rw [h5]
  refine { e1 := hE.e1, e2 := hE.e2, e3 := hE.e3, e4 := ?_, e5 := hE.e5 }
  intro n hn
  by_cases hq : n < q
  · exact hE.e4 n hq
  · have := h1.qr; have := h.rq
    exact (isRecv_iff hc h hE (by omega) (by omega)).1 (h4 n (by omega) hn)

theorem mem_okNumbers {α} (b : Nat × Arrival α) (rest : List (Nat × Arrival α)) (m : Nat) :
    m ∈ okNumbers (b :: rest) ↔ (b.2.kind = .ok ∧ m = b.1) ∨ m ∈ okNumbers rest := by
  unfold okNumbers
  by_cases h : b.2.kind = .ok <;> simp [h]

theorem oneBlock_noReturn {α} (s : Rx α) (a : Arrival α) (h : a.kind ≠ .partialSeg) :
    (s.oneBlock a).2 = false := by
  unfold Rx.oneBlock
  split
  · rfl
  · split
    · rfl
    · cases hk : a.kind <;> simp_all

theorem rcvBlocks_exact {α} {f : Nat → α} {sns ws va vs : Nat}
    (hc : GoodCfg sns ws) (blocks : List (Nat × Arrival α)) :
    ∀ (s : Rx α) (q r : Nat) (got : Nat → Prop),
    Inv f sns ws va vs s q r → Exact sns ws s.win.vn got q r → va ≤ q →
    (∀ b ∈ blocks, va ≤ b.1 ∧ b.1 < vs ∧ b.2.bsn = b.1 % sns ∧ (b.2.kind = .ok → b.2.data = f b.1)) →
    (∀ b ∈ blocks, b.2.kind ≠ .partialSeg) →
    (sns = 128 → blocks.length ≤ 1 ∧ ∀ b ∈ blocks, b.2.bsn ≠ (s.win.vr + 63) % 128) →
    ∃ q' r', Inv f sns ws va vs (s.rcvBlocks (blocks.map (·.2))) q' r' ∧
      Exact sns ws (s.rcvBlocks (blocks.map (·.2))).win.vn (fun m => got m ∨ m ∈ okNumbers blocks) q' r' ∧
      q ≤ q' ∧ (q' = r' ∨ (s.rcvBlocks (blocks.map (·.2))).win.vn (idx sns q') ≠ .received) := by
  induction blocks with
  | nil =>
    intro s q r got h hE hva _ _ _
    obtain ⟨q', h1, h2, h3, h4⟩ := flush_exact hc h hE
    exact ⟨q', r, h1, by simpa [okNumbers, Rx.rcvBlocks] using h2, h3, h4⟩
  | cons b rest ih =>
    intro s q r got h hE hva hb hp hg
    obtain ⟨b1, b2, b3, b4⟩ := hb b (List.mem_cons_self ..)
    obtain ⟨r', _, hI, hE'⟩ := oneBlock_exact hc h hE b.2 b.1 b1 b2 b3 b4
      (fun hs => (hg hs).2 b (List.mem_cons_self ..))
    have hret := oneBlock_noReturn s b.2 (hp b (List.mem_cons_self ..))
    have hrb : s.rcvBlocks ((b :: rest).map (·.2)) = (s.oneBlock b.2).1.rcvBlocks (rest.map (·.2)) := by
      simp only [List.map_cons, Rx.rcvBlocks]
      rcases hres : s.oneBlock b.2 with ⟨s', c⟩
      rw [hres] at hret
      cases c
      · rfl
      · cases hret
    have hlen : sns = 128 → rest = [] := fun hs => by
      have := (hg hs).1
      cases rest with
      | nil => rfl
      | cons _ _ => simp at this
    obtain ⟨q2, r2, x1, x2, x3, x4⟩ := ih (s.oneBlock b.2).1 q r' _ hI hE' hva
      (fun c hc' => hb c (List.mem_cons_of_mem _ hc')) (fun c hc' => hp c (List.mem_cons_of_mem _ hc'))
      (fun hs => by rw [hlen hs]; simp)
    refine ⟨q2, r2, by rw [hrb]; exact x1, ?_, x3, by rw [hrb]; exact x4⟩
    rw [hrb]
    have : (fun m => got m ∨ m ∈ okNumbers (b :: rest)) =
        (fun m => (got m ∨ (b.2.kind = .ok ∧ m = b.1 ∧ b.1 < q + ws)) ∨ m ∈ okNumbers rest) := by
      funext m; apply propext
      have := h.vsva
      have hlt : b.1 < q + ws := by omega
      rw [mem_okNumbers]
      simp only [hlt, and_true, or_assoc]
    rw [this]; exact x2

/-- The exact invariant holds in all reachable states. -/
theorem reachG_inv {α} {f : Nat → α} {sns ws : Nat} (hc : GoodCfg sns ws) {s : SysG α}
    {G : SysG α → List (Nat × Arrival α) → Prop}
    (hG : ∀ s blocks, sns = 128 → G s blocks → NoEdge s blocks)
    (h : ReachG f sns ws G s) : ∃ q r, Inv f sns ws s.va s.vs s.rx q r ∧
      Exact sns ws s.rx.win.vn (· ∈ s.got) q r ∧
      (q = r ∨ s.rx.win.vn (idx sns q) ≠ .received) := by
  induction h with
  | start =>
    refine ⟨0, 0, ?_, ?_, Or.inl rfl⟩
    · refine
             { hsns := rfl, hws := rfl, hq := by simp [Rx.init, Win.init], hr := by simp [Rx.init, Win.init],
               qr := Nat.le_refl _, rq := by omega, rvs := Nat.le_refl _, vsva := by simp, vavs := Nat.le_refl _,
               out := rfl, data := by intro n _ h; omega, acked := by intro n _ h; simp at h }
    · exact { e1 := by intro m _ _; simp [Rx.init, Win.init], e2 := by intro m _ _; simp [Rx.init, Win.init],
              e3 := by simp, e4 := by simp, e5 := Or.inl rfl }
  | @step s t _ hst ih =>
    obtain ⟨q, r, hi, hE, hF⟩ := ih
    have hva : s.va ≤ q := by
      rcases Nat.lt_or_ge q s.va with hh | hh
      · obtain ⟨x, y⟩ := hi.acked q (Nat.le_refl _) hh
        rcases hF with z | z
        · omega
        · exact absurd y z
      · exact hh
    cases hst with
    | sendNew hlt =>
      exact ⟨q, r, { hi with rvs := by have := hi.rvs; simp; omega
                             vsva := by simp; omega
                             vavs := by have := hi.vavs; simp; omega }, hE, hF⟩
    | acked a hle ha hrep =>
      · refine ⟨q, r, { hi with vsva := by have := hi.vsva; simp; omega
                                vavs := ha
                                acked := ?_ }, hE, hF⟩
        intro n n1 n2
        have n2 : n < a := n2
        by_cases hn : n < s.va
        · exact hi.acked n n1 hn
        · rcases hrep n (by omega) n2 with h' | h'
          · rw [hi.out] at h'; simp at h'; omega
          · obtain ⟨i, hi1, hi2, hi3⟩ := h'
            simp only [SysG.toSys] at hi2 hi3
            have hrec : s.rx.win.vn (idx sns n) = .received := by
              simp only [isRecv, beq_iff_eq] at hi3; exact hi3
            refine ⟨?_, hrec⟩
            have e4 := hi.hr; have := hi.qr; have := hi.rq; have := hi.vsva; have := hi.rvs
            rw [e4] at hi2
            have ha' : a ≤ s.vs := ha
            rcases hc with ⟨rfl, rfl⟩ | ⟨rfl, h1', h2'⟩ <;> omega
    | radio blocks hb hp hg =>
      obtain ⟨q', r', x1, x2, _, x4⟩ := rcvBlocks_exact hc blocks s.rx q r _ hi hE hva hb hp
        (fun hs => hG _ _ hs hg)
      exact ⟨q', r', x1, by simpa [List.mem_append] using x2, x4⟩
    | segment b b1 b2 b3 b4 =>
      by_cases hin : s.rx.win.isInWindow b.2.bsn ∧ isRecv s.rx.win.vn b.2.bsn = false
      · obtain ⟨hin, hnr⟩ := hin
        have e : s.rx.oneBlock b.2 = ({ s.rx with buf := store s.rx.buf b.2.bsn b.2.data }, true) := by
          simp [Rx.oneBlock, hin, hnr, b4]
        obtain ⟨r2, hr2, hI⟩ := oneBlock_inv hc.legal hi b.2 ⟨b.1, b1, b2, b3, by rw [b4]; simp⟩
        have e' : s.rx.rcvBlocks [b.2] = { s.rx with buf := store s.rx.buf b.2.bsn b.2.data } := by
          simp [Rx.rcvBlocks, e]
        have hrr : r2 = r := by
          have e1 := hI.hr; have e2 := hi.hr
          rw [e] at e1
          have e1 : s.rx.win.vr = r2 % sns := e1
          rw [e2] at e1
          have := hI.rq; have := hi.qr; have hw := cfg_ws hc.legal
          have hwp : 0 < ws := by rcases hc with ⟨_, rfl⟩ | ⟨_, h3, _⟩ <;> omega
          exact (mod_inj hr2 (by omega) e1).symm
        rw [e, hrr] at hI
        refine ⟨q, r, ?_, ?_, ?_⟩
        · show Inv f sns ws s.va s.vs (s.rx.rcvBlocks [b.2]) q r
          rw [e']; exact hI
        · show Exact sns ws (s.rx.rcvBlocks [b.2]).win.vn _ q r
          rw [e']; exact hE
        · show q = r ∨ (s.rx.rcvBlocks [b.2]).win.vn _ ≠ _
          rw [e']; exact hF
      · have e : s.rx.oneBlock b.2 = (s.rx, false) := by
          unfold Rx.oneBlock
          by_cases h1 : s.rx.win.isInWindow b.2.bsn
          · have : isRecv s.rx.win.vn b.2.bsn = true := by
              cases h2 : isRecv s.rx.win.vn b.2.bsn
              · exact absurd ⟨h1, h2⟩ hin
              · rfl
            simp [h1, this]
          · simp [h1]
        have e' : s.rx.rcvBlocks [b.2] = s.rx.flush := by
          simp [Rx.rcvBlocks, e]
        obtain ⟨q', h1, h2, h3, h4⟩ := flush_exact hc hi hE
        refine ⟨q', r, ?_, ?_, ?_⟩
        · show Inv f sns ws s.va s.vs (s.rx.rcvBlocks [b.2]) q' r
          rw [e']; exact h1
        · show Exact sns ws (s.rx.rcvBlocks [b.2]).win.vn _ q' r
          rw [e']; exact h2
        · show q' = r ∨ (s.rx.rcvBlocks [b.2]).win.vn _ ≠ _
          rw [e']; exact h4

/-! ### Soundness of the marks, for all legal configurations -/

structure Sound (sns : Nat) (vn : Nat → St) (got : Nat → Prop) (q r : Nat) : Prop where
  s1 : ∀ n, n < q → got n
  s2 : ∀ n, q ≤ n → n < r → vn (idx sns n) = .received → got n

theorem vr_same {α} {f : Nat → α} {sns ws va vs : Nat} {s s' : Rx α} {q r r' : Nat}
    (hc : LegalCfg sns ws) (h : Inv f sns ws va vs s q r) (hI : Inv f sns ws va vs s' q r')
    (hr' : r ≤ r') (e : s'.win.vr = s.win.vr) : r' = r := by
  have e1 := hI.hr; have e2 := h.hr
  rw [e, e2] at e1
  have := hI.rq; have := h.qr; have := h.rq
  have hw := cfg_ws hc
  have hwp : 0 < ws := by rcases hc with ⟨_, rfl⟩ | ⟨_, h3, _⟩ <;> omega
  exact (mod_inj hr' (by omega) e1).symm

theorem oneBlock_sound {α} {f : Nat → α} {sns ws va vs : Nat} {s : Rx α} {q r : Nat}
    {got : Nat → Prop}
    (hc : LegalCfg sns ws) (h : Inv f sns ws va vs s q r) (hE : Sound sns s.win.vn got q r)
    (a : Arrival α) (n : Nat) (hn1 : va ≤ n) (hn2 : n < vs) (hb : a.bsn = n % sns)
    (hd : a.kind = .ok → a.data = f n) :
    ∃ r', r ≤ r' ∧ Inv f sns ws va vs (s.oneBlock a).1 q r' ∧
      Sound sns (s.oneBlock a).1.win.vn (fun m => got m ∨ (a.kind = .ok ∧ m = n)) q r' := by
  obtain ⟨r', hr', hI⟩ := oneBlock_inv hc h a ⟨n, hn1, hn2, hb, hd⟩
  refine ⟨r', hr', hI, ?_⟩
  have hwin := inWindow_iff hc h hn1 hn2
  have lift : Sound sns s.win.vn (fun m => got m ∨ (a.kind = .ok ∧ m = n)) q r :=
    ⟨fun m hm => Or.inl (hE.s1 m hm), fun m h1 h2 h3 => Or.inl (hE.s2 m h1 h2 h3)⟩
  by_cases hin : s.win.isInWindow a.bsn
  rotate_left
  · have e : (s.oneBlock a).1 = s := by simp [Rx.oneBlock, hin]
    rw [vr_same hc h hI hr' (by rw [e]), e]; exact lift
  have hnw : q ≤ n ∧ n < q + ws := by rw [hb] at hin; exact hwin.1 hin
  by_cases hrec : isRecv s.win.vn a.bsn
  · have e : (s.oneBlock a).1 = s := by simp [Rx.oneBlock, hin, hrec]
    rw [vr_same hc h hI hr' (by rw [e]), e]; exact lift
  have hq1 := h.qr; have hq2 := h.rq
  cases hk : a.kind with
  | partialSeg =>
    have e : (s.oneBlock a).1 = { s with buf := store s.buf a.bsn a.data } := by
      simp [Rx.oneBlock, hin, hrec, hk]
    rw [vr_same hc h hI hr' (by rw [e]), e]; rw [hk] at lift; exact lift
  | rejected =>
    have e : (s.oneBlock a).1 = { s with buf := store s.buf a.bsn a.data, win := s.win.invalidateBsn a.bsn } := by
      simp [Rx.oneBlock, hin, hrec, hk]
    rw [vr_same hc h hI hr' (by rw [e]; rfl), e]
    refine ⟨fun m hm => Or.inl (hE.s1 m hm), fun m h1 h2 h3 => Or.inl (hE.s2 m h1 h2 ?_)⟩
    have h3 : (s.win.invalidateBsn a.bsn).vn (idx sns m) = .received := h3
    simp only [Win.invalidateBsn, mark_apply] at h3
    split at h3
    · cases h3
    · exact h3
  | ok =>
    have e : (s.oneBlock a).1 = { s with buf := store s.buf a.bsn a.data, win := s.win.receiveBsn a.bsn } := by
      simp [Rx.oneBlock, hin, hrec, hk]
    refine ⟨fun m hm => Or.inl (hE.s1 m hm), fun m h1 h2 h3 => ?_⟩
    rw [e] at h3
    have h3 : (s.win.receiveBsn a.bsn).vn (idx sns m) = .received := h3
    by_cases hmn : m = n
    · exact Or.inr ⟨rfl, hmn⟩
    refine Or.inl ?_
    have hmq : m < q + ws := by have := hI.rq; omega
    have hidx : idx sns m ≠ idx sns n := fun hh =>
      hmn (idx_inj' hc h1 hmq hnw.1 hnw.2 hh)
    let w1 : Win := { s.win with vn := mark s.win.vn a.bsn .received }
    have hw1 : ∀ i, w1.vn i = if i = idx sns n then .received else s.win.vn i := by
      intro i; show mark s.win.vn a.bsn .received i = _
      rw [mark_apply, hb]; rfl
    have hw1m : w1.vn (idx sns m) = s.win.vn (idx sns m) := by rw [hw1, if_neg hidx]
    have hrcv : s.win.receiveBsn a.bsn = w1.raiseVr a.bsn := rfl
    have hoff : w1.modSns (a.bsn + 1 + w1.sns - w1.vr) = (n + 1 + sns - r % sns) % sns := by
      show (a.bsn + 1 + s.win.sns - s.win.vr) % s.win.sns = _
      rw [h.hsns, h.hr, hb]
      rcases hc with ⟨rfl, rfl⟩ | ⟨rfl, h1', h2'⟩ <;> omega
    have hw1sns : w1.sns = sns := h.hsns
    have hw1ws : w1.ws = ws := h.hws
    have hw1vr : w1.vr = r % sns := h.hr
    by_cases hlt : (n + 1 + sns - r % sns) % sns < sns / 2
    rotate_left
    · have hwe : s.win.receiveBsn a.bsn = w1 := by
        rw [hrcv]; simp only [Win.raiseVr]; rw [hoff, hw1sns, if_neg hlt]
      have hrr := vr_same hc h hI hr' (by rw [e, hwe])
      rw [hwe, hw1m] at h3
      exact hE.s2 m h1 (by omega) h3
    · have hwe : s.win.receiveBsn a.bsn = raiseLoop ((n + 1 + sns - r % sns) % sns) w1 := by
        rw [hrcv]; simp only [Win.raiseVr]; rw [hoff, hw1sns, if_pos hlt]
      have hwss := cfg_ws hc
      obtain ⟨b1, b2, b3, b4, b5⟩ := raiseLoop_spec ((n + 1 + sns - r % sns) % sns) w1 r
        (by rw [hw1sns]; exact cfg_pos hc)
        (by rw [hw1vr, hw1sns]) (by rw [hw1sns, hw1ws]; exact hwss.1)
      rw [hw1sns] at b4 b5
      rw [hwe, b5, hw1m] at h3
      obtain ⟨c1, _, c3⟩ := h3
      by_cases hmr : m < r
      · exact hE.s2 m h1 hmr c1
      · exfalso
        have e1 := hI.hr
        rw [e, hwe] at e1
        have e1' : (raiseLoop ((n + 1 + sns - r % sns) % sns) w1).vr = r' % sns := e1
        rw [b4] at e1'
        have := hI.rq
        refine c3 (m - r) ?_ ?_
        · rcases hc with ⟨rfl, rfl⟩ | ⟨rfl, h1', h2'⟩ <;> omega
        · rw [show r + (m - r) = m by omega]; rfl

theorem flush_sound {α} {f : Nat → α} {sns ws va vs : Nat} {s : Rx α} {q r : Nat}
    {got : Nat → Prop} (hc : LegalCfg sns ws) (h : Inv f sns ws va vs s q r)
    (hE : Sound sns s.win.vn got q r) :
    ∃ q', Inv f sns ws va vs s.flush q' r ∧ Sound sns s.flush.win.vn got q' r := by
  obtain ⟨q', h1, h2, h3, h4, h5⟩ := flush_inv hc h
  refine ⟨q', h1, ?_⟩
  rw [h5]
  have := h1.qr
  refine ⟨fun n hn => ?_, fun n n1 n2 n3 => hE.s2 n (by omega) n2 n3⟩
  by_cases hq : n < q
  · exact hE.s1 n hq
  · exact hE.s2 n (by omega) (by omega) (h4 n (by omega) hn)

theorem rcvBlocks_sound {α} {f : Nat → α} {sns ws va vs : Nat}
    (hc : LegalCfg sns ws) (blocks : List (Nat × Arrival α)) :
    ∀ (s : Rx α) (q r : Nat) (got : Nat → Prop),
    Inv f sns ws va vs s q r → Sound sns s.win.vn got q r →
    (∀ b ∈ blocks, va ≤ b.1 ∧ b.1 < vs ∧ b.2.bsn = b.1 % sns ∧ (b.2.kind = .ok → b.2.data = f b.1)) →
    ∃ q' r', Inv f sns ws va vs (s.rcvBlocks (blocks.map (·.2))) q' r' ∧
      Sound sns (s.rcvBlocks (blocks.map (·.2))).win.vn (fun m => got m ∨ m ∈ okNumbers blocks) q' r' := by
  induction blocks with
  | nil =>
    intro s q r got h hE _
    obtain ⟨q', h1, h2⟩ := flush_sound hc h hE
    exact ⟨q', r, h1, by simpa [okNumbers, Rx.rcvBlocks] using h2⟩
  | cons b rest ih =>
    intro s q r got h hE hb
    obtain ⟨b1, b2, b3, b4⟩ := hb b (List.mem_cons_self ..)
    obtain ⟨r', _, hI, hE'⟩ := oneBlock_sound hc h hE b.2 b.1 b1 b2 b3 b4
    have heq : (fun m => got m ∨ m ∈ okNumbers (b :: rest)) =
        (fun m => (got m ∨ (b.2.kind = .ok ∧ m = b.1)) ∨ m ∈ okNumbers rest) := by
      funext m; apply propext
      rw [mem_okNumbers]; simp only [or_assoc]
    rw [heq]
    simp only [List.map_cons, Rx.rcvBlocks]
    rcases hres : s.oneBlock b.2 with ⟨s', c⟩
    rw [hres] at hI hE'
    cases c
    · exact ih s' q r' _ hI hE' (fun c hc' => hb c (List.mem_cons_of_mem _ hc'))
    · exact ⟨q, r', hI, fun m hm => Or.inl (hE'.s1 m hm), fun m h1 h2 h3 => Or.inl (hE'.s2 m h1 h2 h3)⟩

/-- forgetting the record gives a run of the plain system -/
theorem ReachG.toReach {α} {f : Nat → α} {sns ws : Nat} {G} {s : SysG α}
    (h : ReachG f sns ws G s) : Reach f sns ws s.toSys := by
  induction h with
  | start => exact Reach.start
  | step _ hst ih =>
    refine Reach.step ih ?_
    cases hst with
    | sendNew h => exact Step.sendNew _ h
    | acked a h1 h2 h3 => exact Step.acked _ a h1 h2 h3
    | radio blocks hb _ _ =>
      refine Step.radio _ _ ?_
      intro b hb'
      obtain ⟨c, hc, rfl⟩ := List.mem_map.1 hb'
      exact ⟨c.1, hb c hc⟩
    | segment b b1 b2 b3 b4 =>
      refine Step.radio _ _ ?_
      intro c hc
      rw [List.mem_singleton] at hc; subst hc
      exact ⟨b.1, b1, b2, b3, by rw [b4]; simp⟩

theorem acked_inv {α} {f : Nat → α} {sns ws : Nat} (hc : LegalCfg sns ws) {s : Sys α} {q r a : Nat}
    (hi : Inv f sns ws s.va s.vs s.rx q r) (hle : s.va ≤ a) (ha : a ≤ s.vs)
    (hrep : ∀ n, s.va ≤ n → n < a → n < s.rx.out.length ∨ reported s sns ws n) :
    Inv f sns ws a s.vs s.rx q r := by
  refine { hi with vsva := by have := hi.vsva; omega
                   vavs := ha
                   acked := ?_ }
  intro n n1 n2
  by_cases hn : n < s.va
  · exact hi.acked n n1 hn
  · rcases hrep n (by omega) n2 with h' | h'
    · rw [hi.out] at h'; simp at h'; omega
    · obtain ⟨i, hi1, hi2, hi3⟩ := h'
      have hrec : s.rx.win.vn (idx sns n) = .received := by
        simp only [isRecv, beq_iff_eq] at hi3; exact hi3
      refine ⟨?_, hrec⟩
      have e4 := hi.hr; have := hi.qr; have := hi.rq; have := hi.vsva; have := hi.rvs
      have hva : s.va ≤ r := by
        rcases Nat.lt_or_ge q s.va with hh | hh
        · have := (hi.acked (s.va-1) (by omega) (by omega)).1; omega
        · omega
      rw [e4] at hi2
      rcases hc with ⟨rfl, rfl⟩ | ⟨rfl, h1', h2'⟩ <;> omega

theorem reachG_sound {α} {f : Nat → α} {sns ws : Nat} (hc : LegalCfg sns ws) {s : SysG α} {G}
    (h : ReachG f sns ws G s) : ∃ q r, Inv f sns ws s.va s.vs s.rx q r ∧
      Sound sns s.rx.win.vn (· ∈ s.got) q r := by
  induction h with
  | start =>
    refine ⟨0, 0, ?_, ?_⟩
    · obtain ⟨q, r, h⟩ := reach_inv hc (Reach.start (f := f) (sns := sns) (ws := ws))
      have h1 := h.out; have h2 := h.rvs; have := h.qr
      have e1 : r = 0 := by simp at h2; exact h2
      have e2 : q = 0 := by omega
      subst e1; subst e2; exact h
    · exact ⟨by simp, by intro n _ h; omega⟩
  | @step s t _ hst ih =>
    obtain ⟨q, r, hi, hE⟩ := ih
    cases hst with
    | sendNew hlt =>
      exact ⟨q, r, { hi with rvs := by have := hi.rvs; simp; omega
                             vsva := by simp; omega
                             vavs := by have := hi.vavs; simp; omega }, hE⟩
    | acked a hle ha hrep =>
      exact ⟨q, r, acked_inv (s := s.toSys) hc hi hle ha hrep, hE⟩
    | radio blocks hb hp hg =>
      obtain ⟨q', r', x1, x2⟩ := rcvBlocks_sound hc blocks s.rx q r _ hi hE hb
      exact ⟨q', r', x1, by simpa [List.mem_append] using x2⟩
    | segment b b1 b2 b3 b4 =>
      obtain ⟨q', r', x1, x2⟩ := rcvBlocks_sound hc [b] s.rx q r _ hi hE (by
        intro c hc'
        rw [List.mem_singleton] at hc'; subst hc'
        exact ⟨b1, b2, b3, by rw [b4]; simp⟩)
      refine ⟨q', r', x1, ?_⟩
      have : okNumbers [b] = [] := by simp [okNumbers, b4]
      simpa [this] using x2

end Verif.RlcUl
