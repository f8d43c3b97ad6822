import Verif.Spec.BlkCtr
import Verif.Lemmas.Sched
import Verif.Props.C32
/-!
# C97: Data blocks are counted by coding scheme

`run World.init ops` gives the counters after any history of TBFs and blocks. They are compared with the blocks of the history (`Spec.air`).
-/

namespace Verif.BlkCtr

open Verif.Cs Spec

theorem idx_iff (d' : Dir) (c' : CS) (d : Dir) (c : CS) (h : c ≠ .unknown) :
    btsId d' c' = some (btsDesc.findIdx (· == some (d, c))) ↔ d' = d ∧ c' = c := by
  have key : ∀ d' ∈ [Dir.dl, .ul], ∀ c' ∈ CS.all, ∀ d ∈ [Dir.dl, .ul], ∀ c ∈ CS.all, c ≠ .unknown →
      (btsId d' c' = some (btsDesc.findIdx (· == some (d, c))) ↔ d' = d ∧ c' = c) := by decide +kernel
  exact key d' (by cases d' <;> decide) c' (by cases c' <;> decide) d (by cases d <;> decide) c (by cases c <;> decide) h

theorem tbfId_gprs (c' c : CS) (h : c ∈ gprsDesc) : tbfId c' = some (false, gprsDesc.findIdx (· == c)) ↔ c' = c := by
  have key : ∀ c' ∈ CS.all, ∀ c ∈ gprsDesc, (tbfId c' = some (false, gprsDesc.findIdx (· == c)) ↔ c' = c) := by decide +kernel
  exact key c' (by cases c' <;> decide) c h

theorem tbfId_egprs (c' c : CS) (h : c ∈ egprsDesc) : tbfId c' = some (true, egprsDesc.findIdx (· == c)) ↔ c' = c := by
  have key : ∀ c' ∈ CS.all, ∀ c ∈ egprsDesc, (tbfId c' = some (true, egprsDesc.findIdx (· == c)) ↔ c' = c) := by decide +kernel
  exact key c' (by cases c' <;> decide) c h

theorem ids (d : Dir) (c : CS) : (btsId d c).isSome = (tbfId c).isSome := by cases d <;> cases c <;> rfl

/-- What one increment does. -/
theorem count_spec {b b' : Group} {t t' : Tbf} {cs : CS} (h : count b t cs = some (b', t')) :
    t'.dir = t.dir ∧
    (∀ d c, c ≠ .unknown → b' (btsDesc.findIdx (· == some (d, c))) = b (btsDesc.findIdx (· == some (d, c))) + if t.dir = d ∧ cs = c then 1 else 0) ∧
    (∀ i, btsDesc[i]? = some none → b' i = b i) ∧
    ∀ c, tbfValue t' c = (tbfValue t c).map (· + if cs = c then 1 else 0) := by
  unfold count at h
  have hb : ∀ i, btsId t.dir cs = some i → ∀ d c, c ≠ .unknown →
      bump b i (btsDesc.findIdx (· == some (d, c))) = b (btsDesc.findIdx (· == some (d, c))) + if t.dir = d ∧ cs = c then 1 else 0 := by
    intro i hi d c hc
    have h1 := idx_iff t.dir cs d c hc
    rw [hi] at h1
    unfold bump
    by_cases hx : t.dir = d ∧ cs = c
    · rw [if_pos hx, if_pos (Option.some.inj (h1.2 hx)).symm]
    · rw [if_neg hx, if_neg (fun e => hx (h1.1 (by rw [e])))]; rfl
  have hn : ∀ i, btsId t.dir cs = some i → ∀ k, btsDesc[k]? = some none → bump b i k = b k := by
    intro i hi k hk
    unfold bump
    rw [if_neg]
    rintro rfl
    have : ∀ d ∈ [Dir.dl, .ul], ∀ c ∈ CS.all, ∀ i ∈ btsId d c, btsDesc[i]? ≠ some none := by decide +kernel
    exact this t.dir (by cases t.dir <;> decide) cs (by cases cs <;> decide) _ hi hk
  split at h
  · rename_i i j hi hj
    cases hg : t.egprs with
    | none => rw [hg] at h; cases h
    | some g =>
      rw [hg] at h
      cases h
      refine ⟨rfl, hb i hi, hn i hi, ?_⟩
      intro c
      unfold tbfValue
      by_cases h1 : c ∈ gprsDesc
      · rw [if_pos h1, if_pos h1]
        have : cs ≠ c := by
          rintro rfl
          have := (tbfId_gprs cs cs h1).2 rfl
          rw [hj] at this; cases this
        rw [if_neg this]
        cases t.gprs <;> rfl
      rw [if_neg h1, if_neg h1]
      by_cases h2 : c ∈ egprsDesc
      · rw [if_pos h2, if_pos h2, hg]
        have h3 := tbfId_egprs cs c h2
        rw [hj] at h3
        simp only [Option.map_some, Option.some.injEq]
        unfold bump
        by_cases hx : cs = c
        · have := h3.2 hx
          rw [if_pos hx, if_pos (by cases this; rfl)]
        · rw [if_neg hx, if_neg (fun e => hx (h3.1 (by rw [e])))]; rfl
      · rw [if_neg h2, if_neg h2]; rfl
  · rename_i i j hi hj
    cases hg : t.gprs with
    | none => rw [hg] at h; cases h
    | some g =>
      rw [hg] at h
      cases h
      refine ⟨rfl, hb i hi, hn i hi, ?_⟩
      intro c
      unfold tbfValue
      by_cases h1 : c ∈ gprsDesc
      · rw [if_pos h1, if_pos h1, hg]
        have h3 := tbfId_gprs cs c h1
        rw [hj] at h3
        simp only [Option.map_some, Option.some.injEq]
        unfold bump
        by_cases hx : cs = c
        · have := h3.2 hx
          rw [if_pos hx, if_pos (by cases this; rfl)]
        · rw [if_neg hx, if_neg (fun e => hx (h3.1 (by rw [e])))]; rfl
      rw [if_neg h1, if_neg h1]
      by_cases h2 : c ∈ egprsDesc
      · rw [if_pos h2]
        have : cs ≠ c := by
          rintro rfl
          have := (tbfId_egprs cs cs h2).2 rfl
          rw [hj] at this; cases this
        rw [if_neg this]
        cases t.egprs <;> rfl
      · rw [if_neg h2]; rfl
  · rename_i hx1 hx2
    have hu : cs = .unknown := by
      revert hx1 hx2
      cases t.dir <;> cases cs <;> simp [btsId, tbfId]
    cases h
    subst hu
    refine ⟨rfl, ?_, fun _ _ => rfl, ?_⟩
    · intro d c hc
      rw [if_neg (fun e => hc e.2.symm)]; rfl
    · intro c
      cases c with
      | unknown => rfl
      | _ => cases tbfValue t _ <;> rfl

/-- The directions of the TBFs that exist. -/
def World.live (w : World) : List (Option Dir) := w.tbfs.map (Option.map Tbf.dir)

theorem live_get (w : World) (k : Nat) : w.live[k]? = (w.tbfs[k]?).map (Option.map Tbf.dir) := by
  unfold World.live; rw [List.getElem?_map]

abbrev ch : CS → CS → Bool → CS := fun _ cs _ => cs

/-- One block. -/
theorem step_blk {w w' : World} {k : Nat} {t : Tbf} {cs : CS} (hk : w.tbfs[k]? = some (some t))
    (h : (count w.bts t cs).map (fun r => ({ bts := r.1, tbfs := w.tbfs.set k (some r.2) } : World)) = some w') :
    w'.live = w.live ∧
    (∀ d c, c ≠ .unknown → btsValue w' d c = btsValue w d c + if t.dir = d ∧ cs = c then 1 else 0) ∧
    (∀ i, btsDesc[i]? = some none → w'.bts i = w.bts i) ∧
    (∀ j x, w'.tbfs[j]? = some (some x) → ∃ y, w.tbfs[j]? = some (some y) ∧
      ∀ c, tbfValue x c = (tbfValue y c).map (· + if k = j ∧ cs = c then 1 else 0)) := by
  cases hc : count w.bts t cs with
  | none => rw [hc] at h; cases h
  | some r =>
    obtain ⟨b', t'⟩ := r
    rw [hc] at h
    cases h
    obtain ⟨h1, h2, h3, h4⟩ := count_spec hc
    refine ⟨?_, fun d c hcu => h2 d c hcu, h3, ?_⟩
    · apply List.ext_getElem?
      intro j
      rw [live_get, live_get]
      dsimp only
      rw [List.getElem?_set]
      by_cases hj : k = j
      · subst hj
        rw [if_pos rfl, hk]
        have : k < w.tbfs.length := by
          have := List.getElem?_eq_some_iff.1 hk
          exact this.1
        rw [if_pos this]
        simp [h1]
      · rw [if_neg hj]
    · intro j x hx
      dsimp only at hx
      rw [List.getElem?_set] at hx
      by_cases hj : k = j
      · subst hj
        rw [if_pos rfl] at hx
        split at hx
        · cases hx
          refine ⟨t, hk, fun c => ?_⟩
          rw [h4 c]
          by_cases e : cs = c
          · rw [if_pos e, if_pos ⟨rfl, e⟩]
          · rw [if_neg e, if_neg (fun q => e q.2)]
        · cases hx
      · rw [if_neg hj] at hx
        refine ⟨x, hx, fun c => ?_⟩
        rw [if_neg (fun q => hj q.1)]
        cases tbfValue x c <;> rfl

theorem number_cons (x : Nat × Dir × CS) (l : List (Nat × Dir × CS)) (d : Dir) (c : CS) :
    number (x :: l) d c = (if x.2.1 = d ∧ x.2.2 = c then 1 else 0) + number l d c := by
  unfold number
  rw [List.countP_cons]
  by_cases h : x.2.1 = d ∧ x.2.2 = c <;> simp [h, Nat.add_comm]

theorem numberOf_cons (x : Nat × Dir × CS) (l : List (Nat × Dir × CS)) (k : Nat) (c : CS) :
    numberOf (x :: l) k c = (if x.1 = k ∧ x.2.2 = c then 1 else 0) + numberOf l k c := by
  unfold numberOf
  rw [List.countP_cons]
  by_cases h : x.1 = k ∧ x.2.2 = c <;> simp [h, Nat.add_comm]

/-- Counters of a TBF that may not have existed before. -/
def Before (w : World) (k : Nat) (c : CS) (n : Nat) : Prop :=
  (∃ y, w.tbfs[k]? = some (some y) ∧ tbfValue y c = some n) ∨ (w.tbfs.length ≤ k ∧ n = 0)

theorem new_value (t : Tbf) (h : t = .newUl ∨ ∃ e, t = .newDl e) (c : CS) (n : Nat) (hv : tbfValue t c = some n) : n = 0 := by
  unfold tbfValue at hv
  rcases h with rfl | ⟨e, rfl⟩
  · split at hv
    · simp [Tbf.newUl] at hv; exact hv.symm
    · split at hv
      · simp [Tbf.newUl] at hv; exact hv.symm
      · cases hv
  · cases e
    all_goals
      split at hv
      · simp [Tbf.newDl] at hv <;> exact hv.symm
      · split at hv
        · simp [Tbf.newDl] at hv <;> exact hv.symm
        · cases hv

theorem run_spec (ops : List Op) : ∀ (w w' : World), run w ops = some w' →
    (∀ d c, c ≠ .unknown → btsValue w' d c = btsValue w d c + number (blocks ch w.live ops) d c) ∧
    (∀ i, btsDesc[i]? = some none → w'.bts i = w.bts i) ∧
    (∀ k x c n, w'.tbfs[k]? = some (some x) → tbfValue x c = some n →
      ∃ m, Before w k c m ∧ n = m + numberOf (blocks ch w.live ops) k c) := by
  induction ops with
  | nil =>
    intro w w' h
    cases h
    exact ⟨fun _ _ _ => rfl, fun _ _ => rfl, fun k x c n h1 h2 => ⟨n, .inl ⟨x, h1, h2⟩, rfl⟩⟩
  | cons o l ih =>
    intro w w' h
    have hnew : ∀ t, (t = .newUl ∨ ∃ e, t = .newDl e) → run { w with tbfs := w.tbfs ++ [some t] } l = some w' →
        (∀ d c, c ≠ .unknown → btsValue w' d c = btsValue w d c + number (blocks ch (w.live ++ [some t.dir]) l) d c) ∧
        (∀ i, btsDesc[i]? = some none → w'.bts i = w.bts i) ∧
        (∀ k x c n, w'.tbfs[k]? = some (some x) → tbfValue x c = some n →
          ∃ m, Before w k c m ∧ n = m + numberOf (blocks ch (w.live ++ [some t.dir]) l) k c) := by
      intro t ht hr
      obtain ⟨h1, h2, h3⟩ := ih _ _ hr
      have hl : World.live { w with tbfs := w.tbfs ++ [some t] } = w.live ++ [some t.dir] := by
        unfold World.live; simp
      rw [hl] at h1 h3
      refine ⟨h1, h2, ?_⟩
      intro k x c n hx hv
      obtain ⟨m, hm, e⟩ := h3 k x c n hx hv
      refine ⟨m, ?_, e⟩
      rcases hm with ⟨y, hy, hyv⟩ | ⟨hk, hm⟩
      · dsimp only at hy
        rw [List.getElem?_append] at hy
        split at hy
        · exact .inl ⟨y, hy, hyv⟩
        · rename_i hlt
          refine .inr ⟨by omega, ?_⟩
          rw [List.getElem?_singleton] at hy
          split at hy
          · cases hy
            exact new_value _ ht c m hyv
          · cases hy
      · dsimp only at hk
        rw [List.length_append] at hk
        exact .inr ⟨by omega, hm⟩
    have hblk : ∀ (w1 : World) (k : Nat) (t : Tbf) (cs : CS), w.tbfs[k]? = some (some t) →
        (count w.bts t cs).map (fun r => ({ bts := r.1, tbfs := w.tbfs.set k (some r.2) } : World)) = some w1 → run w1 l = some w' →
        (∀ d c, c ≠ .unknown → btsValue w' d c = btsValue w d c + number ((k, t.dir, cs) :: blocks ch w.live l) d c) ∧
        (∀ i, btsDesc[i]? = some none → w'.bts i = w.bts i) ∧
        (∀ k' x c n, w'.tbfs[k']? = some (some x) → tbfValue x c = some n →
          ∃ m, Before w k' c m ∧ n = m + numberOf ((k, t.dir, cs) :: blocks ch w.live l) k' c) := by
      intro w1 k t cs hk hc hr
      obtain ⟨g1, g2, g3, g4⟩ := step_blk hk hc
      have hlen : w1.tbfs.length = w.tbfs.length := by
        have := congrArg List.length g1
        simpa [World.live] using this
      obtain ⟨h1, h2, h3⟩ := ih _ _ hr
      rw [g1] at h1 h3
      refine ⟨?_, fun i hi => (h2 i hi).trans (g3 i hi), ?_⟩
      · intro d c hcu
        rw [h1 d c hcu, g2 d c hcu, number_cons]
        dsimp only
        omega
      · intro k' x c n hx hv
        obtain ⟨m, hm, e⟩ := h3 k' x c n hx hv
        rw [numberOf_cons]
        dsimp only
        rcases hm with ⟨y, hy, hyv⟩ | ⟨hk', hm⟩
        · obtain ⟨z, hz, hzv⟩ := g4 k' y hy
          rw [hzv c] at hyv
          cases hzc : tbfValue z c with
          | none => rw [hzc] at hyv; cases hyv
          | some q =>
            rw [hzc] at hyv
            refine ⟨q, .inl ⟨z, hz, hzc⟩, ?_⟩
            have : q + (if k = k' ∧ cs = c then 1 else 0) = m := by simpa using hyv
            omega
        · refine ⟨m, .inr ⟨by omega, hm⟩, ?_⟩
          have hlt : k < w.tbfs.length := (List.getElem?_eq_some_iff.1 hk).1
          rw [if_neg (by omega)]
          omega
    cases o with
    | newDl e =>
      have := hnew (.newDl e) (.inr ⟨e, rfl⟩) h
      have hd : (Tbf.newDl e).dir = .dl := by cases e <;> rfl
      rw [hd] at this
      exact this
    | newUl => exact hnew .newUl (.inl rfl) h
    | free k =>
      obtain ⟨h1, h2, h3⟩ := ih _ _ h
      have hl : World.live { w with tbfs := w.tbfs.set k none } = w.live.set k none := by
        unfold World.live; simp [List.map_set]
      rw [hl] at h1 h3
      refine ⟨h1, h2, ?_⟩
      intro k' x c n hx hv
      obtain ⟨m, hm, e⟩ := h3 k' x c n hx hv
      refine ⟨m, ?_, e⟩
      rcases hm with ⟨y, hy, hyv⟩ | ⟨hk, hm⟩
      · dsimp only at hy
        rw [List.getElem?_set] at hy
        split at hy
        · split at hy <;> cases hy
        · exact .inl ⟨y, hy, hyv⟩
      · dsimp only at hk
        rw [List.length_set] at hk
        exact .inr ⟨hk, hm⟩
    | tx k ini cs single =>
      obtain ⟨w1, hs, hr⟩ := Option.bind_eq_some_iff.1 h
      show _ ∧ _ ∧ _
      rw [show blocks ch w.live (.tx k ini cs single :: l) = if w.live[k]? = some (some .dl) then (k, .dl, cs) :: blocks ch w.live l else blocks ch w.live l from rfl]
      rw [live_get]
      unfold step at hs
      dsimp only at hs
      split at hs
      · rename_i t hk
        rw [hk]
        by_cases hd : t.dir = .dl
        · rw [if_pos hd] at hs
          have := hblk w1 k t cs hk hs hr
          rw [hd] at this
          simp only [Option.map_some, hd, if_true]
          exact this
        · rw [if_neg hd] at hs
          cases hs
          simp only [Option.map_some, Option.some.injEq, hd, if_false]
          exact ih _ _ hr
      · rename_i hk
        cases hs
        rw [if_neg]
        · exact ih _ _ hr
        · intro e
          cases hq : w.tbfs[k]? with
          | none => rw [hq] at e; cases e
          | some q =>
            cases q with
            | none => rw [hq] at e; cases e
            | some t => exact hk t hq
    | rx k cs rel =>
      obtain ⟨w1, hs, hr⟩ := Option.bind_eq_some_iff.1 h
      rw [show blocks ch w.live (.rx k cs rel :: l) = if w.live[k]? = some (some .ul) ∧ rel = false then (k, .ul, cs) :: blocks ch w.live l else blocks ch w.live l from rfl]
      rw [live_get]
      unfold step at hs
      dsimp only at hs
      split at hs
      · rename_i t hk
        rw [hk]
        by_cases hd : t.dir = .ul ∧ rel = false
        · rw [if_pos hd] at hs
          have := hblk w1 k t cs hk hs hr
          rw [hd.1] at this
          rw [if_pos ⟨by simp [hd.1], hd.2⟩]
          exact this
        · rw [if_neg hd] at hs
          cases hs
          rw [if_neg (fun e => hd ⟨by simpa using e.1, e.2⟩)]
          exact ih _ _ hr
      · rename_i hk
        cases hs
        rw [if_neg]
        · exact ih _ _ hr
        · rintro ⟨e, -⟩
          cases hq : w.tbfs[k]? with
          | none => rw [hq] at e; cases e
          | some q =>
            cases q with
            | none => rw [hq] at e; cases e
            | some t => exact hk t hq

/-- The schemes on the air against the schemes chosen. -/
theorem air_spec (ops : List Op) : ∀ live : List (Option Dir),
    (∀ c, number (blocks Sched.radioCs live ops) .ul c = number (blocks ch live ops) .ul c) ∧
    (∀ c, c ∉ [CS.mcs5, .mcs6, .mcs7, .mcs9] → number (blocks Sched.radioCs live ops) .dl c = number (blocks ch live ops) .dl c) ∧
    (number (blocks Sched.radioCs live ops) .dl .mcs5 + number (blocks Sched.radioCs live ops) .dl .mcs7 =
      number (blocks ch live ops) .dl .mcs5 + number (blocks ch live ops) .dl .mcs7) ∧
    (number (blocks Sched.radioCs live ops) .dl .mcs6 + number (blocks Sched.radioCs live ops) .dl .mcs9 =
      number (blocks ch live ops) .dl .mcs6 + number (blocks ch live ops) .dl .mcs9) ∧
    number (blocks Sched.radioCs live ops) .dl .mcs7 ≤ number (blocks ch live ops) .dl .mcs7 ∧
    number (blocks Sched.radioCs live ops) .dl .mcs9 ≤ number (blocks ch live ops) .dl .mcs9 := by
  induction ops with
  | nil => intro live; exact ⟨fun _ => rfl, fun _ _ => rfl, rfl, rfl, Nat.le_refl _, Nat.le_refl _⟩
  | cons o l ih =>
    intro live
    cases o with
    | newDl e => exact ih _
    | newUl => exact ih _
    | free k => exact ih _
    | tx k ini cs single =>
      unfold blocks
      split
      · obtain ⟨i1, i2, i3, i4, i5, i6⟩ := ih live
        have key : ∀ ini ∈ CS.all, ∀ cs ∈ CS.all, ∀ single ∈ [true, false],
            (∀ c ∈ CS.all, c ∉ [CS.mcs5, .mcs6, .mcs7, .mcs9] → (Sched.radioCs ini cs single = c ↔ cs = c)) ∧
            (Sched.radioCs ini cs single = cs ∨ (cs = .mcs7 ∧ Sched.radioCs ini cs single = .mcs5) ∨
              (cs = .mcs9 ∧ Sched.radioCs ini cs single = .mcs6)) := by decide +kernel
        obtain ⟨k1, k2⟩ := key ini (by cases ini <;> decide) cs (by cases cs <;> decide) single (by cases single <;> decide)
        have hch : ch ini cs single = cs := rfl
        simp only [number_cons, hch]
        refine ⟨fun c => ?_, fun c hc => ?_, ?_, ?_, ?_, ?_⟩
        · have := i1 c
          simp only [reduceCtorEq, false_and, if_false]
          omega
        · have := i2 c hc
          simp only [true_and, k1 c (by cases c <;> decide) hc]
          omega
        all_goals
          simp only [true_and]
          rcases k2 with e | ⟨e1, e2⟩ | ⟨e1, e2⟩
          · rw [e]; omega
          · rw [e2, e1]; simp only [reduceCtorEq, if_false, if_true]; omega
          · rw [e2, e1]; simp only [reduceCtorEq, if_false, if_true]; omega
      · exact ih live
    | rx k cs rel =>
      unfold blocks
      split
      · obtain ⟨i1, i2, i3, i4, i5, i6⟩ := ih live
        simp only [number_cons, reduceCtorEq, false_and, if_false, Nat.zero_add]
        exact ⟨fun c => by rw [i1 c], i2, i3, i4, i5, i6⟩
      · exact ih live

/-- Uplink: the counter of the BTS with the name of a scheme is the number of data blocks that its TBFs received in this scheme. -/
theorem C97_ul (ops : List Op) (w : World) (h : run World.init ops = some w) (c : CS) (hc : c ≠ .unknown) :
    btsValue w .ul c = number (air ops) .ul c := by
  rw [(run_spec ops _ _ h).1 .ul c hc]
  show 0 + _ = _
  rw [Nat.zero_add]
  exact ((air_spec ops []).1 c).symm

/-- Downlink: the counter with the name of a scheme is the number of radio blocks sent in this scheme, except for MCS-5, 6, 7 and 9. Of these
the sums are right: MCS-5 with MCS-7 and MCS-6 with MCS-9; the counters of MCS-7 and MCS-9 are never too low. -/
theorem C97_dl_partial (ops : List Op) (w : World) (h : run World.init ops = some w) :
    (∀ c, c ∉ [CS.unknown, .mcs5, .mcs6, .mcs7, .mcs9] → btsValue w .dl c = number (air ops) .dl c) ∧
    btsValue w .dl .mcs5 + btsValue w .dl .mcs7 = number (air ops) .dl .mcs5 + number (air ops) .dl .mcs7 ∧
    btsValue w .dl .mcs6 + btsValue w .dl .mcs9 = number (air ops) .dl .mcs6 + number (air ops) .dl .mcs9 ∧
    number (air ops) .dl .mcs7 ≤ btsValue w .dl .mcs7 ∧ number (air ops) .dl .mcs9 ≤ btsValue w .dl .mcs9 := by
  obtain ⟨-, a2, a3, a4, a5, a6⟩ := air_spec ops []
  have hr : ∀ c, c ≠ .unknown → btsValue w .dl c = number (blocks ch [] ops) .dl c := by
    intro c hc
    rw [(run_spec ops _ _ h).1 .dl c hc]
    exact Nat.zero_add _
  refine ⟨?_, ?_, ?_, ?_, ?_⟩
  · intro c hc
    simp only [List.mem_cons, List.not_mem_nil, or_false, not_or] at hc
    rw [hr c hc.1]
    exact (a2 c (by simp [hc])).symm
  · rw [hr _ (by decide), hr _ (by decide)]; exact a3.symm
  · rw [hr _ (by decide), hr _ (by decide)]; exact a4.symm
  · rw [hr _ (by decide)]; exact a5
  · rw [hr _ (by decide)]; exact a6

/-- Downlink, all schemes: what is counted is the scheme that was chosen for the block. -/
theorem C97_dl_chosen (ops : List Op) (w : World) (h : run World.init ops = some w) (c : CS) (hc : c ≠ .unknown) :
    btsValue w .dl c = number (chosen ops) .dl c := by
  rw [(run_spec ops _ _ h).1 .dl c hc]
  exact Nat.zero_add _

/-- The counters of a TBF count its own blocks and no others, by the scheme that was chosen. -/
theorem C97_tbf (ops : List Op) (w : World) (h : run World.init ops = some w) (k : Nat) (t : Tbf) (c : CS) (n : Nat)
    (ht : w.tbfs[k]? = some (some t)) (hn : tbfValue t c = some n) : n = numberOf (chosen ops) k c := by
  obtain ⟨m, hm, e⟩ := (run_spec ops _ _ h).2.2 k t c n ht hn
  rcases hm with ⟨y, hy, -⟩ | ⟨-, rfl⟩
  · cases hy
  · rw [Nat.zero_add] at e; exact e

/-- No other counter of the BTS is touched. -/
theorem C97_others (ops : List Op) (w : World) (h : run World.init ops = some w) (i : Nat) (hi : btsDesc[i]? = some none) : w.bts i = 0 :=
  (run_spec ops _ _ h).2.1 i hi

/-- The kinds of the TBFs that exist. -/
def kindOf (t : Tbf) : Option Bool := if t.dir = .ul then none else some t.egprs.isSome

/-- A TBF has the groups of its kind. -/
def TInv (t : Tbf) : Prop := match t.dir with
  | .ul => t.gprs.isSome ∧ t.egprs.isSome
  | .dl => t.gprs.isSome = !t.egprs.isSome

theorem count_some {b : Group} {t : Tbf} {cs : CS} (hi : TInv t)
    (hk : ∀ e, kindOf t = some e → if e then cs.isEdge = true else cs ∈ gprsDesc) :
    ∃ r, count b t cs = some r ∧ TInv r.2 ∧ kindOf r.2 = kindOf t := by
  obtain ⟨d, g, e⟩ := t
  have key : ∀ cs ∈ CS.all, (cs.isEdge = true → ∃ j ∈ List.range 9, tbfId cs = some (true, j)) ∧ (cs ∈ gprsDesc → ∃ j ∈ List.range 4, tbfId cs = some (false, j)) := by
    decide +kernel
  have kk := key cs (by cases cs <;> decide)
  cases d <;> cases g <;> cases e <;> simp [TInv] at hi <;> simp [kindOf] at hk
  · obtain ⟨j, -, hj⟩ := kk.1 hk
    have := ids .dl cs
    rw [hj] at this
    obtain ⟨i, hi'⟩ := Option.isSome_iff_exists.1 this
    unfold count
    simp only [hi', hj]
    exact ⟨_, rfl, by simp [TInv], by simp [kindOf]⟩
  · obtain ⟨j, -, hj⟩ := kk.2 hk
    have := ids .dl cs
    rw [hj] at this
    obtain ⟨i, hi'⟩ := Option.isSome_iff_exists.1 this
    unfold count
    simp only [hi', hj]
    exact ⟨_, rfl, by simp [TInv], by simp [kindOf]⟩
  · unfold count
    split
    all_goals exact ⟨_, rfl, by simp [TInv], by simp [kindOf]⟩

theorem run_some (ops : List Op) : ∀ w : World, (∀ t, some t ∈ w.tbfs → TInv t) →
    Kinds (w.tbfs.map (Option.map kindOf)) ops → (run w ops).isSome := by
  induction ops with
  | nil => intro w _ _; rfl
  | cons o l ih =>
    intro w hi hk
    have hblk : ∀ k t cs, w.tbfs[k]? = some (some t) → (∀ e, kindOf t = some e → if e then cs.isEdge = true else cs ∈ gprsDesc) →
        Kinds (w.tbfs.map (Option.map kindOf)) l →
        (((count w.bts t cs).map fun r => ({ bts := r.1, tbfs := w.tbfs.set k (some r.2) } : World)).bind fun w' => run w' l).isSome := by
      intro k t cs ht hc hl
      obtain ⟨r, hr, r1, r2⟩ := count_some (b := w.bts) (cs := cs) (hi t (List.mem_of_getElem? ht)) hc
      rw [hr]
      show (run _ l).isSome
      apply ih
      · intro x hx
        rcases List.mem_or_eq_of_mem_set hx with h1 | h1
        · exact hi x h1
        · cases h1; exact r1
      · have : (w.tbfs.set k (some r.2)).map (Option.map kindOf) = w.tbfs.map (Option.map kindOf) := by
          apply List.ext_getElem?
          intro j
          rw [List.getElem?_map, List.getElem?_map, List.getElem?_set]
          by_cases hj : k = j
          · subst hj
            rw [if_pos rfl, ht, if_pos (List.getElem?_eq_some_iff.1 ht).1]
            simp [r2]
          · rw [if_neg hj]
        dsimp only
        rw [this]
        exact hl
    have hnew : ∀ t, TInv t → Kinds (w.tbfs.map (Option.map kindOf) ++ [some (kindOf t)]) l →
        (run { w with tbfs := w.tbfs ++ [some t] } l).isSome := by
      intro t ht hl
      apply ih
      · intro x hx
        rcases List.mem_append.1 hx with h1 | h1
        · exact hi x h1
        · cases List.mem_singleton.1 h1; exact ht
      · simpa using hl
    cases o with
    | newDl e => exact hnew (.newDl e) (by cases e <;> simp [TInv, Tbf.newDl]) (by cases e <;> exact hk)
    | newUl => exact hnew .newUl (by simp [TInv, Tbf.newUl]) hk
    | free k =>
      apply ih { w with tbfs := w.tbfs.set k none }
      · intro x hx
        rcases List.mem_or_eq_of_mem_set hx with h1 | h1
        · exact hi x h1
        · cases h1
      · have : Kinds ((w.tbfs.map (Option.map kindOf)).set k none) l := hk
        simpa [List.map_set] using this
    | tx k ini cs single =>
      obtain ⟨h1, h2⟩ := hk
      show ((step w _).bind _).isSome
      unfold step
      dsimp only
      split
      · rename_i t ht
        split
        · refine hblk k t cs ht (fun e he => h1 e ?_) h2
          rw [List.getElem?_map, ht]
          simp [he]
        · exact ih w hi h2
      · exact ih w hi h2
    | rx k cs rel =>
      show ((step w _).bind _).isSome
      unfold step
      dsimp only
      split
      · rename_i t ht
        split
        · rename_i hd
          refine hblk k t cs ht (fun e he => ?_) hk
          unfold kindOf at he
          rw [if_pos hd.1] at he
          cases he
        · exact ih w hi hk
      · exact ih w hi hk

/-- As long as every downlink block has a scheme of the kind of its TBF no counter of a missing group is touched, whatever mobiles send. -/
theorem C97_no_null_partial (ops : List Op) (h : Kinds [] ops) : ∃ w, run World.init ops = some w :=
  Option.isSome_iff_exists.1 (run_some ops World.init (fun t ht => by cases ht) h)

/-- The scheduler keeps to the condition of `C97_no_null_partial`, GPRS: a TBF that is not an EGPRS TBF and holds no EGPRS blocks is
given a GPRS scheme for its next block, also after its mobile was found to be EGPRS capable. -/
theorem C97_kind_gprs (c : Sched.Cfg) (e : Sched.Env) (req : Kind) (i : Nat) (t : Sched.DlT) (x : Sched.Chosen) (hg : Sched.GprsSane e)
    (hi : i < 32) (ht : e.dl i = some t) (he : t.egprs = false) (h : Sched.dataCs c req t = some x) : x.cs ∈ gprsDesc := by
  rcases Sched.dataCs_gprs hg hi ht he h with h | h | h | h <;> rw [h] <;> decide

theorem restrict_edge {b : Ms.Cell} {cur x : CS} {req : Kind} (hc : cur.isEdge = true) (hr : req ≠ .gprs) (h : Ms.restrictCs b cur req = some x) :
    x.isEdge = true := by
  unfold Ms.restrictCs at h
  split at h
  · cases h
    split
    · rfl
    split
    · rfl
    split <;> rfl
  · split at h
    · rename_i h2; exact absurd h2.1 hr
    · cases h; exact hc

theorem dec_edge (m : Kind) (c : CS) (hm : m ≠ .gprs) (hc : c.isEdge = true) : (c.decKind m).isEdge = true := by
  revert hm hc
  cases m <;> cases c <;> decide

/-- The scheduler keeps to the condition of `C97_no_null_partial`, EGPRS: an EGPRS TBF that holds EGPRS blocks only is given an EGPRS scheme
unless a block that GPRS mobiles can read is wanted (then no EGPRS TBF is selected). -/
theorem C97_kind_egprs (c : Sched.Cfg) (req : Kind) (t : Sched.DlT) (x : Sched.Chosen) (he : t.egprs = true) (hr : req ≠ .gprs)
    (hm : t.ms.mode ≠ .gprs) (hc : t.ms.curDl.isEdge = true) (hb : ∀ n, (t.blk n).cur.isEdge = true)
    (h : Sched.dataCs c req t = some x) : x.cs.isEdge = true := by
  unfold Sched.dataCs at h
  rw [he] at h
  simp only [if_true] at h
  cases hq : Ms.currentCsDl c.cell t.ms req t.few with
  | none => rw [hq] at h; cases h
  | some tx =>
    rw [hq] at h
    simp only [Option.bind_some] at h
    have htx : tx.isEdge = true := by
      unfold Ms.currentCsDl at hq
      cases hz : Ms.restrictCs c.cell t.ms.curDl req with
      | none => rw [hz] at hq; cases hq
      | some z =>
        rw [hz] at hq
        have hze := restrict_edge hc hr hz
        simp only [Option.map_some, Option.some.injEq] at hq
        subst hq
        split
        · exact hze
        · split
          · exact dec_edge _ _ hm (dec_edge _ _ hm hze)
          · exact dec_edge _ _ hm hze
    split at h
    · cases hx : Sched.retxCs c true (t.blk _) tx with
      | none => rw [hx] at h; cases h
      | some y =>
        rw [hx] at h
        simp only [Option.map_some, Option.some.injEq] at h
        subst h
        dsimp only
        unfold Sched.retxCs at hx
        simp only [if_true] at hx
        generalize (t.blk _).ini = ini at hx
        have key : ∀ ini ∈ CS.all, ∀ tx ∈ CS.all, ∀ q ∈ [true, false], ∀ z ∈ getRetx ini tx q, z.isEdge = true := by decide +kernel
        cases hg : getRetx ini tx c.arq1 with
        | none => rw [hg] at hx; cases hx
        | some z =>
          rw [hg] at hx
          simp only [Option.map_some, Option.some.injEq] at hx
          subst hx
          split
          · rfl
          · exact key ini (by cases ini <;> decide) tx (by cases tx <;> decide) c.arq1 (by cases c.arq1 <;> decide) z hg
    · cases h; exact htx
    · cases h; exact htx
    · cases h; exact hb _
    · cases h

/-- A downlink block alone in its radio block for which MCS-7 was chosen is sent in MCS-5 and counted as MCS-7; MCS-9 likewise. -/
theorem C97_dl_fails : ∃ ops w, Kinds [] ops ∧ run World.init ops = some w ∧
    btsValue w .dl .mcs5 = 0 ∧ number (air ops) .dl .mcs5 = 1 ∧ btsValue w .dl .mcs7 = 1 ∧ number (air ops) .dl .mcs7 = 0 ∧
    btsValue w .dl .mcs6 = 0 ∧ number (air ops) .dl .mcs6 = 1 ∧ btsValue w .dl .mcs9 = 1 ∧ number (air ops) .dl .mcs9 = 0 := by
  have hk : Kinds [] [.newDl true, .tx 0 .mcs7 .mcs7 true, .tx 0 .mcs9 .mcs9 true] := by
    refine ⟨?_, ?_, trivial⟩ <;> intro e he <;> cases he <;> rfl
  obtain ⟨w, hw⟩ := C97_no_null_partial _ hk
  refine ⟨_, w, hk, hw, ?_⟩
  have e : ∀ c, c ≠ .unknown → btsValue w .dl c = _ := fun c hc => C97_dl_chosen _ w hw c hc
  rw [e _ (by decide), e _ (by decide), e _ (by decide), e _ (by decide)]
  decide +kernel

/-- Two TBFs, three blocks: the hypotheses are met and the counters are not all zero. -/
def exOps97 : List Op := [.newUl, .newDl false, .rx 0 .mcs6 false, .rx 0 .cs2 false, .tx 1 .cs4 .cs4 true, .rx 0 .cs2 true, .free 0]

example : Kinds [] exOps97 := ⟨fun e he => by cases he; decide, trivial⟩

example : number (air exOps97) .ul .cs2 = 1 ∧ number (air exOps97) .dl .cs4 = 1 ∧ number (air exOps97) .ul .mcs6 = 1 ∧
    numberOf (chosen exOps97) 1 .cs4 = 1 := by decide +kernel

example : run World.init [.newDl false, .tx 0 .mcs1 .mcs1 true] = none := rfl

example : ∃ x, Sched.dataCs Sched.exCfg29 .egprs (Sched.exDl29 1 false) = some x ∧ x.cs ∈ gprsDesc := ⟨⟨.cs2, .cs2, .fresh⟩, by decide +kernel, by decide⟩

example : ∃ x, Sched.dataCs (Sched.exCfg32 true) .egprs (Sched.exDl32 Sched.exWin32 .mcs7 false) = some x ∧ x.cs.isEdge = true :=
  match h : Sched.dataCs (Sched.exCfg32 true) .egprs (Sched.exDl32 Sched.exWin32 .mcs7 false) with
  | some x => ⟨x, rfl, C97_kind_egprs _ _ _ x rfl (by decide) (by decide) (by decide) (fun _ => rfl) h⟩
  | none => absurd h (by decide +kernel)

end Verif.BlkCtr
