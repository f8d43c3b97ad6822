import Verif.Lemmas.SegFill
/-! The invariant of the LLC service. -/
namespace Verif.Seg

open Verif.LlcSeg

structure Good (edge : Bool) (s : Llc) : Prop where
  idx : s.idx ≤ s.cur.length
  idxG : edge = false → s.cur ≠ [] → s.idx < s.cur.length
  five : s.cur ≠ [] → 5 ≤ s.cur.length
  q5 : ∀ f ∈ s.queue, 5 ≤ f.length
  top : s.cur ≠ [] → ∃ l b, s.loaded = l ++ [(b, s.cur)]
  dum : ∀ x ∈ s.loaded, x.1 = true → ∃ k, x.2 = dummyFrame k

theorem schedule_cur {s : Llc} (h : s.cur ≠ []) : s.schedule = s := by
  unfold Llc.schedule
  rw [if_pos (by simpa using h)]

theorem schedule_good {edge : Bool} {s : Llc} (h : Good edge s) : Good edge s.schedule := by
  by_cases hc : s.cur = []
  · unfold Llc.schedule
    rw [if_neg (by simp [hc])]
    rcases hq : s.queue with _ | ⟨f, q⟩
    · exact h
    · have hf := h.q5 f (by rw [hq]; simp)
      refine ⟨by simp, fun _ _ => by dsimp only; omega, fun _ => hf, ?_, fun _ => ⟨_, _, rfl⟩, ?_⟩
      · intro g hg
        exact h.q5 g (by rw [hq]; simp at hg ⊢; exact Or.inr hg)
      · intro x hx hx1
        simp only [List.mem_append, List.mem_singleton] at hx
        rcases hx with hx | rfl
        · exact h.dum x hx hx1
        · exact absurd hx1 (by simp)
  · rw [schedule_cur hc]; exact h

theorem schedule_user (s : Llc) :
    s.schedule.userLoaded ++ s.schedule.queue = s.userLoaded ++ s.queue := by
  unfold Llc.schedule
  split
  · rfl
  · split
    · rfl
    · rename_i f q hq
      simp [Llc.userLoaded, hq]

theorem schedule_done {s : Llc} (hc : s.cur = []) (hi : s.idx = 0)
    (h5 : ∀ f ∈ s.queue, 5 ≤ f.length) :
    s.schedule.cur.take s.schedule.idx = [] ∧ s.schedule.completed = s.completed ∧
    (s.schedule.cur = [] → s.schedule.queue = []) ∧ s.schedule.idx = 0 ∧
    s.schedule.pending = s.queue.map List.length := by
  unfold Llc.schedule
  rw [if_neg (by simp [hc])]
  rcases hq : s.queue with _ | ⟨f, q⟩
  · simp [hc, hi, hq, Llc.pending]
  · have hf : f ≠ [] := by
      intro h
      have := h5 f (by rw [hq]; simp)
      rw [h] at this; simp at this
    refine ⟨by simp, ?_, ?_, rfl, ?_⟩
    · unfold Llc.completed
      dsimp only
      rw [if_pos hc, if_neg hf]; simp
    · intro h; exact absurd h hf
    · unfold Llc.pending; dsimp only; rw [if_neg hf]; simp

/-- The frame being sent is done. -/
theorem finish_good {edge : Bool} {s : Llc} (h : Good edge s) :
    Good edge { s with
      cur := []
      idx := 0 } :=
  ⟨by simp, by simp, by simp, h.q5, by simp, h.dum⟩

theorem finish_completed {edge : Bool} {s : Llc} (h : Good edge s) (hc : s.cur ≠ []) :
    ({ s with
      cur := []
      idx := 0 } : Llc).completed = s.completed ++ [s.cur] := by
  obtain ⟨l, b, hl⟩ := h.top hc
  unfold Llc.completed
  dsimp only
  rw [if_pos rfl, if_neg hc, hl]; simp

theorem drained_gprs (n : Nat) (t : Tx) (ps : List (List Nat)) (hn : LegalLen false n)
    (hm : Mid false n t ps) (hps : ps ≠ []) :
    t.blk.length = n ∧ ∃ k, Holds false t.blk t.e k ∧ ∀ a last, afterBlock a last k = asmAll a ps := by
  obtain ⟨F, hblk, hF⟩ := hm.blk
  have h2 := hn.2
  simp only [Bool.false_eq_true, if_false] at h2
  have hlt := hm.lt
  have hcnt := hm.cnt
  have hoff := hm.off
  have hlen : t.blk.length = n := by
    rw [hblk, List.length_append, List.length_append, lisOf_length]; omega
  refine ⟨hlen, ?_⟩
  rw [hm.e, if_neg hps]
  rcases snoc_cases ps with h | ⟨qs, p, rfl⟩
  · exact absurd h hps
  · have hq : ∀ q ∈ qs ++ [p], 1 ≤ q.length ∧ q.length < 64 := fun q hq =>
      ⟨List.length_pos_iff.2 (hm.posG rfl q hq), by simpa using hm.szs q hq⟩
    exact ⟨_, holds_gprs_fill qs p F hq (by omega) _ (by rw [hblk, lisOf_gprs]), fun _ _ => rfl⟩

theorem drained_egprs (n : Nat) (t : Tx) (ps : List (List Nat)) (hn : LegalLen true n)
    (hm : Mid true n t ps) (hps : ps ≠ []) :
    (liPadding n t).blk.length = n ∧ ∃ k, Holds true (liPadding n t).blk t.e k ∧ ∀ a last, afterBlock a last k = asmAll a ps := by
  obtain ⟨F, hblk, hF⟩ := hm.blk
  have h2 := hn.2
  simp only [if_true] at h2
  have hlt := hm.lt
  have hcnt := hm.cnt
  have hoff := hm.off
  have hszs : ∀ p ∈ ps, p.length < 127 := by simpa using hm.szs
  have hb : (liPadding n t).blk = ps.map (fun q => 2 * q.length) ++ [255] ++ ps.flatten ++ F.drop 1 := by
    unfold liPadding
    dsimp only
    rw [hblk, hm.num, hm.off, gapE ps F _ hszs]; simp
  have hlen : (liPadding n t).blk.length = n := by
    rw [hb]
    simp only [List.length_append, List.length_map, List.length_cons, List.length_nil, List.length_drop]
    omega
  refine ⟨hlen, ?_⟩
  rw [hm.e, if_neg hps]
  exact ⟨_, holds_egprs_fill ps (F.drop 1) hszs hm.pos (by omega) _ hb, fun _ _ => rfl⟩

theorem Mid.congr {edge : Bool} {n : Nat} {t t' : Tx} {ps : List (List Nat)} (h : Mid edge n t ps)
    (h1 : t'.blk = t.blk) (h2 : t'.off = t.off) (h3 : t'.num = t.num) (h4 : t'.e = t.e)
    (h5 : t'.cv = t.cv) : Mid edge n t' ps := by
  obtain ⟨a, b, c, d, e, f, g, i, j, k⟩ := h
  exact ⟨by rw [h1, h2]; exact a, by rw [h3]; exact b, by rw [h2]; exact c, by rw [h2]; exact d,
    by rw [h4]; exact e, by rw [h5]; exact f, g, i, j, by rw [h2]; exact k⟩

theorem liPadding_e (n : Nat) (t : Tx) : (liPadding n t).e = t.e ∧ (liPadding n t).cv = t.cv :=
  ⟨rfl, rfl⟩

theorem append_spec (edge : Bool) (n : Nat) (fin : Bool) (t : Tx) (ps : List (List Nat))
    (hn : LegalLen edge n) (hm : Mid edge n t ps) (hc : t.idx ≤ t.cur.length)
    (hcG : edge = false → t.idx < t.cur.length)
    (hc5 : ps ≠ [] → 5 ≤ t.cur.length - t.idx)
    (hok : edge = false → ¬ (fin = true ∧ ps ≠ [] ∧ t.cur.length - t.idx = n - t.off)) :
    AppendSpec edge n fin t ps (t.cur.drop t.idx) (append edge n fin t) := by
  unfold append
  cases edge
  · simp only [Bool.false_eq_true, if_false]
    exact appendGprs_spec n fin t ps _ rfl hn hm (hcG rfl) hc5 (hok rfl)
  · simp only [if_true]
    exact appendEgprs_spec n fin t ps _ rfl hn hm hc hc5

/-- Amount of work pending: all octets still to be sent, and one per frame. -/
def Llc.work (s : Llc) : Nat := (s.pending.map (· + 1)).sum

theorem work_cons {s : Llc} (h : s.cur ≠ []) :
    s.work = s.cur.length - s.idx + 1 + ((s.queue.map List.length).map (· + 1)).sum := by
  unfold Llc.work Llc.pending
  rw [if_neg h]; simp

theorem fill_ok (edge : Bool) (n : Nat) (hn : LegalLen edge n) (fin : Nat → Bool) (a : Asm) :
    ∀ (k : Nat) (t : Tx) (s : Llc) (ps : List (List Nat)),
      Mid edge n t ps → Good edge s → (s.cur = [] → s.queue = []) → (ps ≠ [] → s.idx = 0) →
      n - t.off < k →
      asmAll a ps = ⟨s.cur.take s.idx, s.completed⟩ →
      (edge = false → (∃ k, fin k = true) → exactFit n t.off s.pending = false) →
      ∃ b s', fill edge n fin k t s = some (b, s') ∧ b.data.length = n ∧
        (∃ c, Holds edge b.data b.e c ∧ afterBlock a (decide (b.cv = 0)) c = ⟨s'.cur.take s'.idx, s'.completed⟩) ∧
        Good edge s' ∧ s'.userLoaded ++ s'.queue = s.userLoaded ++ s.queue ∧
        (b.cv = 0 → s'.cur = [] ∧ s'.queue = []) ∧
        (s.cur ≠ [] ∨ ps ≠ [] → s'.work ≤ s.work) ∧
        (ps = [] → s.cur ≠ [] → s'.work < s.work) := by
  intro k
  induction k with
  | zero => intro t s ps _ _ _ _ hk; omega
  | succ k ih =>
    intro t s ps hm hg hcq hidx hk hasm hfit
    have hlt := hm.lt
    have hnum := hm.num
    unfold fill
    by_cases h1 : s.cur.length = 0 ∧ t.num ≠ 0
    · rw [if_pos h1]
      have hc : s.cur = [] := List.length_eq_zero_iff.1 h1.1
      have hps : ps ≠ [] := by intro h; rw [h] at hnum; exact h1.2 hnum
      dsimp only
      refine ⟨_, s, rfl, ?_⟩
      have hm' : Mid edge n (if (s.queue.isEmpty && fin k) = true then { t with cv := 15 } else t) ps := by
        split
        · exact hm.congr rfl rfl rfl rfl hm.cv.symm
        · exact hm
      have hrest : Good edge s ∧ s.userLoaded ++ s.queue = s.userLoaded ++ s.queue := ⟨hg, rfl⟩
      cases edge
      · simp only [Bool.false_eq_true, if_false]
        obtain ⟨d1, c, d2, d3⟩ := drained_gprs n t ps hn hm hps
        split
        · exact ⟨d1, ⟨c, d2, by rw [← hasm]; exact d3 a _⟩, hg, trivial, fun _ => ⟨hc, hcq hc⟩, fun _ => Nat.le_refl _, fun h => absurd h hps⟩
        · exact ⟨d1, ⟨c, d2, by rw [← hasm]; exact d3 a _⟩, hg, trivial, fun _ => ⟨hc, hcq hc⟩, fun _ => Nat.le_refl _, fun h => absurd h hps⟩
      · simp only [if_true]
        obtain ⟨d1, c, d2, d3⟩ := drained_egprs n t ps hn hm hps
        split
        · exact ⟨d1, ⟨c, d2, by rw [← hasm]; exact d3 a _⟩, hg, trivial, fun _ => ⟨hc, hcq hc⟩, fun _ => Nat.le_refl _, fun h => absurd h hps⟩
        · exact ⟨d1, ⟨c, d2, by rw [← hasm]; exact d3 a _⟩, hg, trivial, fun _ => ⟨hc, hcq hc⟩, fun _ => Nat.le_refl _, fun h => absurd h hps⟩
    · rw [if_neg h1]
      -- the frame to be sent: the current one, or a dummy
      generalize hs2 : (if s.cur.length = 0 then
          ({ s with
              cur := dummyFrame (n - t.off - 1)
              idx := 0
              loaded := s.loaded ++ [(true, dummyFrame (n - t.off - 1))] } : Llc)
        else s) = s2
      have key : Good edge s2 ∧ s2.cur ≠ [] ∧ s2.queue = s.queue ∧ s2.userLoaded = s.userLoaded ∧
          s2.cur.take s2.idx = s.cur.take s.idx ∧ s2.completed = s.completed ∧
          (ps ≠ [] → s2.idx = 0) ∧
          (s.cur = s2.cur ∧ s.idx = s2.idx ∨ s.cur = [] ∧ s.queue = [] ∧ ps = []) ∧
          (edge = false → (∃ k, fin k = true) → exactFit n t.off s2.pending = false) := by
        by_cases hc : s.cur.length = 0
        · rw [if_pos hc] at hs2
          have hc0 : s.cur = [] := List.length_eq_zero_iff.1 hc
          have hnum0 : t.num = 0 := by
            by_cases h : t.num = 0
            · exact h
            · exact absurd ⟨hc, h⟩ h1
          have hps : ps = [] := by rw [hnum] at hnum0; exact List.length_eq_zero_iff.1 hnum0
          have hoff0 : t.off = 0 := by rw [hm.off, hps]; simp
          have hd6 : 6 ≤ (dummyFrame (n - t.off - 1)).length := by simp [dummyFrame]
          have hdne : dummyFrame (n - t.off - 1) ≠ [] := by simp [dummyFrame]
          subst hs2
          refine ⟨⟨by simp, fun _ _ => ?_, fun _ => ?_, hg.q5, fun _ => ⟨_, _, rfl⟩, ?_⟩, hdne, rfl, ?_,
            by simp [hc0], ?_, fun _ => rfl, Or.inr ⟨hc0, hcq hc0, hps⟩, ?_⟩
          · dsimp only; omega
          · dsimp only; omega
          · intro x hx hx1
            simp only [List.mem_append, List.mem_singleton] at hx
            rcases hx with hx | rfl
            · exact hg.dum x hx hx1
            · exact ⟨_, rfl⟩
          · simp [Llc.userLoaded]
          · unfold Llc.completed; dsimp only; rw [if_pos hc0, if_neg hdne]; simp
          · intro _ _
            unfold Llc.pending
            dsimp only
            rw [if_neg hdne, hcq hc0, hoff0]
            simp [exactFit]
        · rw [if_neg hc] at hs2
          subst hs2
          exact ⟨hg, by intro h; exact hc (by rw [h]; rfl), rfl, rfl, rfl, rfl, hidx, Or.inl ⟨rfl, rfl⟩, hfit⟩
      obtain ⟨hg2, hne2, hq2, hu2, ht2, hc2, hi2, hsame, hf2⟩ := key
      rw [← ht2, ← hc2] at hasm
      have hwork : s.cur ≠ [] → s.work = s2.work := by
        intro h
        rcases hsame with ⟨h1, h2⟩ | ⟨h1, _⟩
        · rw [work_cons h, work_cons hne2, h1, h2, hq2]
        · exact absurd h1 h
      have hcur0 : ps ≠ [] → s.cur ≠ [] := by
        intro h
        rcases hsame with ⟨h1, _⟩ | ⟨_, _, h3⟩
        · rw [h1]; exact hne2
        · exact absurd h3 h
      have hres : ∀ s' : Llc, s'.work ≤ s2.work → (ps = [] → s'.work < s2.work) →
          (s.cur ≠ [] ∨ ps ≠ [] → s'.work ≤ s.work) ∧
          (ps = [] → s.cur ≠ [] → s'.work < s.work) := by
        intro s' h1 h2
        constructor
        · rintro (h | h)
          · rw [hwork h]; exact h1
          · rw [hwork (hcur0 h)]; exact h1
        · intro h h'; rw [hwork h']; exact h2 h
      have hw2 := work_cons hne2
      rw [← hq2, ← hu2]
      clear hs2 ht2 hc2 hfit hidx hcq hg
      dsimp only
      have hm2 : Mid edge n { t with
        cur := s2.cur
        idx := s2.idx } ps := hm.congr rfl rfl rfl rfl rfl
      have h5 := hg2.five hne2
      have hsp := append_spec edge n (s2.queue.isEmpty && fin k) { t with
        cur := s2.cur
        idx := s2.idx } ps hn hm2 hg2.idx (fun he => hg2.idxG he hne2)
        (fun hps => by dsimp only; rw [hi2 hps]; exact h5)
        (by
          intro he ⟨hfin, hps, heq⟩
          dsimp only at heq
          rw [Bool.and_eq_true] at hfin
          have hqe : s2.queue = [] := by simpa using hfin.1
          have := hf2 he ⟨k, hfin.2⟩
          unfold Llc.pending at this
          rw [if_neg hne2, hqe] at this
          have hoffne : t.off ≠ 0 := by
            have := List.length_pos_iff.2 hps
            have := hm.off
            omega
          simp only [List.map_nil, exactFit, Bool.and_eq_false_iff, bne_eq_false_iff_eq,
            beq_eq_false_iff_ne] at this
          rcases this with h | h
          · exact hoffne h
          · omega)
      generalize append edge n (s2.queue.isEmpty && fin k) { t with
        cur := s2.cur
        idx := s2.idx } = r at hsp
      obtain ⟨t', ar⟩ := r
      dsimp only
      have hstart : asmAll a (ps ++ [s2.cur.drop s2.idx]) = ⟨[], s2.completed ++ [s2.cur]⟩ := by
        rw [asmAll_append, hasm]
        simp [Asm.piece]
      have hfc := finish_completed hg2 hne2
      have hfg := finish_good hg2
      generalize hs3 : ({ s2 with
          cur := []
          idx := 0 } : Llc) = s3 at *
      have hs3c : s3.cur = [] := by rw [← hs3]
      have hs3i : s3.idx = 0 := by rw [← hs3]
      have hs3q : s3.queue = s2.queue := by rw [← hs3]
      have hs3u : s3.userLoaded = s2.userLoaded := by rw [← hs3]; rfl
      obtain ⟨d1, d2, d3, d4, d5⟩ := schedule_done hs3c hs3i hfg.q5
      have du := schedule_user s3
      have dw : s3.schedule.work < s2.work := by
        rw [hw2]; unfold Llc.work; rw [d5, hs3q]; omega
      rcases hsp with ⟨har, hlen, hcv, hcur, m, hidx', hm1, hm2', hmp, c, hol, hdec⟩ | ⟨har, hlen, hcv, c, hol, hdec⟩ |
        ⟨har, hfin, hmid⟩
      · dsimp only at har hlen hcv hcur hidx' hm1 hm2' hmp hol hdec
        subst har
        rw [if_pos rfl]
        refine ⟨_, _, rfl, hlen, ⟨c, hol, ?_⟩, ?_, rfl, ?_, ?_⟩
        · dsimp only
          rw [hcv]
          show afterBlock a false c = _
          rw [hdec a, hasm]
          dsimp only [Asm.piece]
          rw [hcur, hidx']
          have : s2.cur.take s2.idx ++ (s2.cur.drop s2.idx).take m = s2.cur.take (s2.idx + m) := by
            rw [List.take_add]
          simp only [Bool.false_eq_true, if_false]
          rw [this]
          rfl
        · rw [List.length_drop] at hm1 hm2'
          refine ⟨?_, ?_, ?_, hg2.q5, ?_, hg2.dum⟩
          · dsimp only; rw [hcur, hidx']; have := hg2.idx; omega
          · intro he _; dsimp only; rw [hcur, hidx']; have := hm2' he; omega
          · intro _; dsimp only; rw [hcur]; exact h5
          · intro _; dsimp only; rw [hcur]; exact hg2.top hne2
        · intro h; dsimp only at h; omega
        · rw [List.length_drop] at hm1
          have hw' : ({ s2 with
              cur := t'.cur
              idx := t'.idx } : Llc).work + m = s2.work := by
            rw [hw2, work_cons (by dsimp only; rw [hcur]; exact hne2)]
            dsimp only
            rw [hcur, hidx']; have := hg2.idx; omega
          exact hres _ (by omega) (fun h => by have := hmp h; omega)
      · dsimp only at har hlen hcv hol hdec
        subst har
        rw [if_neg (by simp), if_neg (by simp)]
        refine ⟨_, _, rfl, hlen, ⟨c, hol, ?_⟩, schedule_good hfg, ?_, ?_, hres _ (by omega) (fun _ => dw)⟩
        · rw [d1, d2, hfc, ← hstart]
          exact hdec a
        · rw [du, hs3u, hs3q]
        · intro h
          have hfin := hcv.1 h
          rw [Bool.and_eq_true] at hfin
          have hqe : s3.queue = [] := by rw [hs3q]; simpa using hfin.1
          have : s3.schedule = s3 := by
            unfold Llc.schedule; rw [if_neg (by simp [hs3c]), hqe]
          rw [this]
          exact ⟨hs3c, hqe⟩
      · dsimp only at har hmid
        subst har
        rw [if_neg (by simp), if_pos rfl]
        obtain ⟨b, s', e1, e2, e3, e4, e5, e6, e7, e8⟩ := ih t' s3.schedule (ps ++ [s2.cur.drop s2.idx]) hmid
          (schedule_good hfg) d3 (fun _ => d4)
          (by have h1 := hmid.off
              have h2 := hm.off
              have h3 : (ps ++ [s2.cur.drop s2.idx]).flatten.length ≥ ps.flatten.length := by
                rw [List.flatten_append, List.length_append]; omega
              rw [List.length_append, List.length_cons, List.length_nil] at h1
              omega)
          (by rw [hstart, d1, d2, hfc])
          (by
            intro he hf
            have hx := hf2 he hf
            rw [d5, hs3q]
            unfold Llc.pending at hx
            rw [if_neg hne2] at hx
            have hoff' : t'.off = t.off + 1 + (s2.cur.length - s2.idx) := by
              have h1 := hmid.off
              have h2 := hm.off
              rw [List.flatten_append, List.length_append, List.length_append] at h1
              simp only [List.length_cons, List.length_nil, List.flatten_cons, List.flatten_nil,
                List.append_nil, List.length_drop] at h1
              omega
            rcases hqq : s2.queue with _ | ⟨f, q⟩
            · rfl
            · rw [hqq] at hx
              rw [List.map_cons] at hx
              unfold exactFit at hx
              rw [← hoff'] at hx
              rw [decide_eq_true hmid.lt, Bool.true_and] at hx
              exact hx)
        exact ⟨b, s', e1, e2, e3, e4, by rw [e5, du, hs3u, hs3q], e6,
          hres _ (by have := e7 (Or.inr (by simp)); omega) (fun _ => by have := e7 (Or.inr (by simp)); omega)⟩

theorem createBlock_content (edge : Bool) (n : Nat) (hn : LegalLen edge n) (fin : Nat → Bool) (a : Asm)
    (s : Llc) (hg : Good edge s)
    (hasm : a = ⟨s.cur.take s.idx, s.completed⟩)
    (hfit : edge = false → (∃ k, fin k = true) → exactFit n 0 s.pending = false) :
    ∃ b s', createBlock edge n fin s = some (b, s') ∧ b.data.length = n ∧
      (∃ c, Holds edge b.data b.e c ∧ afterBlock a (decide (b.cv = 0)) c = ⟨s'.cur.take s'.idx, s'.completed⟩) ∧
      Good edge s' ∧ s'.userLoaded ++ s'.queue = s.userLoaded ++ s.queue ∧
      (b.cv = 0 → s'.cur = [] ∧ s'.queue = []) ∧ (s.pending ≠ [] → s'.work < s.work) := by
  unfold createBlock
  have hn20 := hn.1
  have hsch : (s.schedule.cur = [] → s.schedule.queue = []) ∧
      (⟨s.schedule.cur.take s.schedule.idx, s.schedule.completed⟩ : Asm) =
        ⟨s.cur.take s.idx, s.completed⟩ ∧ s.schedule.pending = s.pending := by
    by_cases hc : s.cur = []
    · have hi : s.idx = 0 := by have := hg.idx; rw [hc] at this; simpa using this
      obtain ⟨d1, d2, d3, d4, d5⟩ := schedule_done hc hi hg.q5
      refine ⟨d3, by rw [d1, d2, hc]; simp, ?_⟩
      rw [d5]; unfold Llc.pending; rw [if_pos hc]
    · rw [schedule_cur hc]
      exact ⟨fun h => absurd h hc, rfl, rfl⟩
  obtain ⟨b, s', h1, h2, h3, h4, h5, h6, _, h7⟩ := fill_ok edge n hn fin a (n + 2)
    { blk := List.replicate n 0x2b, off := 0, num := 0, e := 1, cv := 15, cur := [], idx := 0 }
    s.schedule []
    ⟨⟨List.replicate n 0x2b, by simp [lisOf_nil], by simp⟩, rfl, rfl, by dsimp only; omega, by simp,
      rfl, by simp, by simp, by simp, by simp⟩ (schedule_good hg) hsch.1 (by simp)
    (by dsimp only; omega) (by rw [hsch.2.1, ← hasm]; rfl)
    (by rw [hsch.2.2]; exact hfit)
  refine ⟨b, s', h1, h2, h3, h4, by rw [h5, schedule_user], h6, fun hp => ?_⟩
  have hcne : s.schedule.cur ≠ [] := by
    intro h
    rw [← hsch.2.2] at hp
    apply hp
    unfold Llc.pending
    rw [if_pos h, hsch.1 h]; rfl
  have := h7 rfl hcne
  unfold Llc.work at this ⊢
  rw [hsch.2.2] at this
  exact this

theorem createBlock_ok (edge : Bool) (n : Nat) (hn : LegalLen edge n) (fin : Nat → Bool) (a : Asm)
    (s : Llc) (hg : Good edge s)
    (hasm : a = ⟨s.cur.take s.idx, s.completed⟩)
    (hfit : edge = false → (∃ k, fin k = true) → exactFit n 0 s.pending = false) :
    ∃ b s', createBlock edge n fin s = some (b, s') ∧ b.data.length = n ∧
      (∀ junk, a.block edge (memOf b.data junk) n b.hdr = ⟨s'.cur.take s'.idx, s'.completed⟩) ∧
      Good edge s' ∧ s'.userLoaded ++ s'.queue = s.userLoaded ++ s.queue ∧
      (b.cv = 0 → s'.cur = [] ∧ s'.queue = []) ∧ (s.pending ≠ [] → s'.work < s.work) := by
  obtain ⟨b, s', h1, h2, ⟨c, h3, h3'⟩, h4⟩ := createBlock_content edge n hn fin a s hg hasm hfit
  exact ⟨b, s', h1, h2, fun junk => by rw [← h3']; exact h3.read a junk n b.cv h2, h4⟩

/-- The invariant of the link. -/
structure LinkInv (edge : Bool) (s : Link) : Prop where
  good : Good edge s.tx
  rx : s.rx = ⟨s.tx.cur.take s.tx.idx, s.tx.completed⟩
  user : s.tx.userLoaded ++ s.tx.queue = s.given

theorem link_inv {edge : Bool} {ok : Nat → (Nat → Bool) → Llc → Prop}
    (hok : ∀ n fin s, ok n fin s → edge = false → (∃ k, fin k = true) →
      exactFit n 0 s.pending = false)
    {s : Link} (h : Link.Reach edge ok s) : LinkInv edge s := by
  induction h with
  | start =>
    exact ⟨⟨by simp [Link.start], by simp [Link.start], by simp [Link.start],
      by simp [Link.start], by simp [Link.start], by simp [Link.start]⟩, rfl, rfl⟩
  | step _ hst ih =>
    cases hst with
    | enqueue f hf =>
      obtain ⟨g, r, u⟩ := ih
      refine ⟨⟨g.idx, g.idxG, g.five, ?_, g.top, g.dum⟩, r, ?_⟩
      · intro x hx
        simp only [List.mem_append, List.mem_singleton] at hx
        rcases hx with hx | rfl
        · exact g.q5 x hx
        · exact hf
      · dsimp only; rw [← u]; simp [Llc.userLoaded]
    | block n fin junk b tx' hs hn hokk hb =>
      obtain ⟨b', s', h1, h2, h3, h4, h5, h6, _⟩ := createBlock_ok edge n hn fin _ _ ih.good ih.rx
        (fun he hf => hok _ _ _ hokk he hf)
      rw [hb] at h1
      simp only [Option.some.injEq, Prod.mk.injEq] at h1
      obtain ⟨rfl, rfl⟩ := h1
      exact ⟨h4, h3 junk, by dsimp only; rw [h5]; exact ih.user⟩

/-- What the receiver has delivered is, apart from dummy frames, what was handed over. -/
theorem delivered_of_inv {edge : Bool} {s : Link} (h : LinkInv edge s) : Delivered s := by
  obtain ⟨g, r, u⟩ := h
  refine ⟨if s.tx.cur = [] then s.tx.loaded else s.tx.loaded.dropLast, ?_, ?_, ?_⟩
  · rw [r]; rfl
  · intro x hx hx1
    refine g.dum x ?_ hx1
    split at hx
    · exact hx
    · exact List.dropLast_subset _ hx
  · rw [← u]
    unfold Llc.userLoaded
    split
    · exact List.prefix_append _ _
    · have h1 : s.tx.loaded.dropLast <+: s.tx.loaded := List.dropLast_prefix _
      obtain ⟨r, hr⟩ := h1
      conv => rhs; rw [← hr]
      rw [List.filter_append, List.map_append, List.append_assoc]
      exact List.prefix_append _ _

theorem allDelivered_of_inv {edge : Bool} {s : Link} (h : LinkInv edge s)
    (hc : s.tx.cur = []) (hq : s.tx.queue = []) : AllDelivered s := by
  obtain ⟨g, r, u⟩ := h
  refine ⟨s.tx.loaded, ?_, g.dum, ?_, ?_⟩
  · rw [r]; unfold Llc.completed; rw [if_pos hc]
  · rw [← u, hq]; simp [Llc.userLoaded]
  · rw [r, hc]; simp

theorem pending_nil {s : Llc} (h : s.pending = []) : s.cur = [] ∧ s.queue = [] := by
  unfold Llc.pending at h
  split at h
  · rename_i hc; exact ⟨hc, by simpa using h⟩
  · simp at h

theorem blocks_deliver {edge : Bool} :
    ∀ (sizes : List Nat) (s : Link), LinkInv edge s → (∀ n ∈ sizes, LegalLen edge n) →
      s.tx.work ≤ sizes.length →
      ∃ k t, sendBlocks edge (sizes.take k) s = some t ∧ t.given = s.given ∧ AllDelivered t := by
  intro sizes
  induction sizes with
  | nil =>
    intro s h _ hw
    refine ⟨0, s, rfl, rfl, ?_⟩
    have hp : s.tx.pending = [] := by
      rcases hp : s.tx.pending with _ | ⟨x, xs⟩
      · rfl
      · unfold Llc.work at hw; rw [hp] at hw; simp at hw
    exact allDelivered_of_inv h (pending_nil hp).1 (pending_nil hp).2
  | cons n sizes ih =>
    intro s h hl hw
    by_cases hp : s.tx.pending = []
    · exact ⟨0, s, rfl, rfl, allDelivered_of_inv h (pending_nil hp).1 (pending_nil hp).2⟩
    · obtain ⟨b, s', h1, h2, h3, h4, h5, h6, h7⟩ := createBlock_ok edge n (hl n (by simp))
        (fun _ => false) s.rx s.tx h.good h.rx (by simp)
      have hw' := h7 hp
      simp only [List.length_cons] at hw
      obtain ⟨k, t, e1, e2, e3⟩ := ih ⟨s.given, s', s.rx.block edge (memOf b.data (fun _ => 0)) n b.hdr,
        false⟩ ⟨h4, h3 _, by dsimp only; rw [h5]; exact h.user⟩ (fun m hm => hl m (by simp [hm]))
        (by dsimp only; omega)
      refine ⟨k + 1, t, ?_, e2, e3⟩
      rw [List.take_succ_cons]
      unfold sendBlocks
      rw [h1]
      exact e1

end Verif.Seg
