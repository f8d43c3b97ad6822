import Verif.Lemmas.Rim
import Verif.Props.C41
/-!
Lemmas for C73: the histories of a PCU as one mobile sees them.
-/

namespace Verif.Rim

open BtsMsg PcuIf
open Verif.Nacc (Key Cgi Si Ctx Notif Mob World)

/-- What the procedure of a mobile finds in the PCU. -/
def WorldOk (nr : Nat) (l : List Did) (w : World) : Prop :=
  (∀ k g, w.neigh k = some g → LastAddress l k g) ∧ (∀ g v, w.sis g = some v → LastReport l g v) ∧
  ∀ x ∈ w.cells, ∃ d ∈ l, ∃ y ∈ d.post.l1.bts, y.1 ≠ nr ∧ y.2.cgi = x.1

theorem world_ok {home : Nat → Nat} {e : Env} {d : Did} {l : List Did} (h : Run home e (d :: l) d.post) {s : Pcu} {nr : Nat} {b : Bts} {q r : Bool}
    {w : World} (hw : worldOf s nr b q r = w) (h1 : s.l1 = d.post.l1) (h2 : s.neigh = d.post.neigh) (h3 : s.sis = d.post.sis) :
    WorldOk nr (d :: l) w := by
  subst hw
  unfold worldOf
  rw [h1, h2, h3]
  refine ⟨fun k g hk => neigh_last h hk, fun g v hv => sis_last h hv, ?_⟩
  intro x hx
  obtain ⟨y, hy, rfl⟩ := List.mem_map.1 (show x ∈ (d.post.l1.bts.filter (·.1 ≠ nr)).map fun x => (x.2.cgi, ownSi x.2) from hx)
  obtain ⟨h1, h2⟩ := List.mem_filter.1 hy
  exact ⟨d, List.mem_cons_self, y, h1, of_decide_eq_true h2, rfl⟩

/-- Where an event of a mobile comes from: the head of the history. -/
def Origin (nr i : Nat) (l : List Did) : Nacc.Ev → Prop
  | .notify w n => ∃ d l' q r, l = d :: l' ∧ d.ev = .notify q r i n ∧ WorldOk nr l w ∧ w.reqOk = q ∧ w.rimOk = r
  | .addr w k c => ∃ d l' q m, l = d :: l' ∧ d.ev = .bts q m ∧ told m = some (nr, k, c) ∧ WorldOk nr l w ∧ w.reqOk = true ∧ w.rimOk = q
  | .si g v => ∃ d l', l = d :: l' ∧ d.report = some (g, v)
  | .timer => ∃ d l', l = d :: l' ∧ d.ev = .timer i
  | _ => True

/-- The events of mobile `i` in a history, and its procedure. -/
inductive Proj (nr i lac ci : Nat) : List Did → List Nacc.Ev → Option Ctx → Prop
  | nil : Proj nr i lac ci [] [] none
  | skip {l es x} (d : Did) : Proj nr i lac ci l es x → view i (d :: l) = view i l → Proj nr i lac ci (d :: l) es x
  | ev {l es x} (d : Did) (e : Nacc.Ev) : Proj nr i lac ci l es x → Origin nr i (d :: l) e →
      view i (d :: l) = (view i l).see e (Nacc.step lac ci x e).2 → Proj nr i lac ci (d :: l) (e :: es) (Nacc.step lac ci x e).1

theorem Proj.hist {nr i lac ci : Nat} {l : List Did} {es : List Nacc.Ev} {x : Option Ctx} (h : Proj nr i lac ci l es x) :
    Nacc.Hist lac ci es x (view i l) := by
  induction h with
  | nil => exact .init
  | skip d _ hv ih => rw [hv]; exact ih
  | ev d e _ _ hv ih => rw [hv]; exact .step e ih

theorem hist_fun {lac ci : Nat} : ∀ {es : List Nacc.Ev} {x x' : Option Ctx} {m m' : Mob}, Nacc.Hist lac ci es x m → Nacc.Hist lac ci es x' m' →
    x = x' ∧ m = m'
  | [], _, _, _, _, h, h' => by cases h; cases h'; exact ⟨rfl, rfl⟩
  | e :: es, _, _, _, _, h, h' => by
    cases h with
    | step _ h =>
      cases h' with
      | step _ h' =>
        obtain ⟨rfl, rfl⟩ := hist_fun h h'
        exact ⟨rfl, rfl⟩

/-- The history when the events were over. -/
theorem Proj.split {nr i lac ci : Nat} {l : List Did} {es : List Nacc.Ev} {x : Option Ctx} (h : Proj nr i lac ci l es x) :
    ∀ {cur es' : List Nacc.Ev}, es = cur ++ es' → ∃ l1 l2 x2, l = l1 ++ l2 ∧ Proj nr i lac ci l2 es' x2 ∧
      ∀ e ∈ cur, ∃ a b, l1 = a ++ b ∧ b ≠ [] ∧ Origin nr i (b ++ l2) e := by
  induction h with
  | nil =>
    intro cur es' he
    cases cur with
    | nil => cases he; exact ⟨[], [], none, rfl, .nil, nofun⟩
    | cons _ _ => cases he
  | skip d h hv ih =>
    intro cur es' he
    cases cur with
    | nil => cases he; exact ⟨[], _, _, rfl, .skip d h hv, nofun⟩
    | cons e cur =>
      obtain ⟨l1, l2, x2, rfl, h2, h3⟩ := ih he
      refine ⟨d :: l1, l2, x2, rfl, h2, ?_⟩
      intro e he
      obtain ⟨a, b, rfl, h4⟩ := h3 e he
      exact ⟨d :: a, b, rfl, h4⟩
  | @ev l es x d e h ho hv ih =>
    intro cur es' he
    cases cur with
    | nil => cases he; exact ⟨[], _, _, rfl, .ev d e h ho hv, nofun⟩
    | cons e' cur =>
      rw [List.cons_append] at he
      injection he with he1 he2
      subst he1
      obtain ⟨l1, l2, x2, rfl, h2, h3⟩ := ih he2
      refine ⟨d :: l1, l2, x2, rfl, h2, ?_⟩
      intro e'' he''
      rcases List.mem_cons.1 he'' with rfl | he''
      · exact ⟨[], d :: l1, rfl, nofun, ho⟩
      · obtain ⟨a, b, rfl, h4⟩ := h3 e'' he''
        exact ⟨d :: a, b, rfl, h4⟩

/-- Effect of an event on one mobile. -/
theorem step_mob {home : Nat → Nat} {e : Env} {s s' : Pcu} {ev : In} {net : List Net} {mob : Nat → List Nacc.Out} {l : List Did} (hr : Run home e l s)
    (h : step home e s ev = .ok s' net mob) (i lac ci : Nat) (hst : ∀ q r n, ev = .notify q r i n → (s'.bts (home i)).cgi.lac = lac ∧
      (s'.bts (home i)).cgi.ci = ci) {es : List Nacc.Ev} (hp : Proj (home i) i lac ci l es (s.nacc i)) :
    ∃ es', Proj (home i) i lac ci (⟨ev, net, mob, s'⟩ :: l) es' (s'.nacc i) := by
  have hr' : Run home e (⟨ev, net, mob, s'⟩ :: l) (Did.post ⟨ev, net, mob, s'⟩) := .step ev hr h
  -- events of other mobiles, and of none
  have quiet : s'.nacc i = s.nacc i → mob i = [] → (∀ q r n, ev ≠ .notify q r i n) →
      ∃ es', Proj (home i) i lac ci (⟨ev, net, mob, s'⟩ :: l) es' (s'.nacc i) := by
    intro h1 h2 h3
    rw [h1]
    refine ⟨es, .skip _ hp ?_⟩
    rw [view]
    dsimp only
    rw [h2]
    cases ev with
    | notify q r j n =>
      have : j ≠ i := fun hj => h3 q r n (by rw [hj])
      show (if j = i then _ else _) = _
      rw [if_neg this]
    | _ => rfl
  have real : ∀ x : Nacc.Ev, s'.nacc i = (Nacc.step lac ci (s.nacc i) x).1 → mob i = (Nacc.step lac ci (s.nacc i) x).2 →
      Origin (home i) i (⟨ev, net, mob, s'⟩ :: l) x → (∀ o, o.foldl Mob.receive (asking i (view i l) ev) = (view i l).see x o) →
      ∃ es', Proj (home i) i lac ci (⟨ev, net, mob, s'⟩ :: l) es' (s'.nacc i) := by
    intro x h1 h2 h3 h4
    rw [h1]
    refine ⟨x :: es, .ev _ x hp h3 ?_⟩
    rw [view]
    dsimp only
    rw [h2]
    exact h4 _
  have onep : ∀ (j : Nat) (f : Bts → Nacc.Ev), one home s j f = .ok s' net mob → (∀ q r n, ev ≠ .notify q r i n) →
      (∀ b w n, f b ≠ .notify w n) → (j = i → ∀ b, Origin (home i) i (⟨ev, net, mob, s'⟩ :: l) (f b)) →
      ∃ es', Proj (home i) i lac ci (⟨ev, net, mob, s'⟩ :: l) es' (s'.nacc i) := by
    intro j f h1 h2 h3 h4
    by_cases hj : i = j
    · subst hj
      have hb : ∀ a b : Nat, ∀ x : Nacc.Ev, (∀ w n, x ≠ .notify w n) → Nacc.step a b (s.nacc i) x = Nacc.step lac ci (s.nacc i) x := by
        intro a b x hx
        cases x with
        | notify w n => exact absurd rfl (hx w n)
        | _ => cases s.nacc i <;> rfl
      have h5 := hb (s.bts (home i)).cgi.lac (s.bts (home i)).cgi.ci (f (s.bts (home i))) (h3 _)
      refine real (f (s.bts (home i))) ?_ ?_ (h4 rfl _) ?_
      · cases h1
        show (if i = i then _ else _) = _
        rw [if_pos rfl, h5]
      · cases h1
        show (if i = i then _ else _) = _
        rw [if_pos rfl, h5]
      · intro o
        have h6 : asking i (view i l) ev = view i l := by
          cases ev with
          | notify q r j n =>
            have : j ≠ i := fun hj => h2 q r n (by rw [hj])
            show (if j = i then _ else _) = _
            rw [if_neg this]
          | _ => rfl
        rw [h6]
        cases hf : f (s.bts (home i)) with
        | notify w n => exact absurd hf (h3 _ w n)
        | _ => rfl
    · refine quiet ?_ ?_ h2
      · cases h1
        show (if i = j then _ else _) = _
        rw [if_neg hj]
      · cases h1
        show (if i = j then _ else _) = _
        rw [if_neg hj]
  cases ev with
  | bts rimOk m =>
    have h0 := h
    change rxBts home e s rimOk m = _ at h
    unfold rxBts at h
    cases hx : rx e s.l1 m with
    | exit => rw [hx] at h; cases h
    | abort => rw [hx] at h; cases h
    | outside => rw [hx] at h; cases h
    | ok l1 o acc =>
      rw [hx] at h
      dsimp only at h
      rw [rx_told hx] at h
      cases hf : told m with
      | none => rw [hf] at h; cases h; exact quiet rfl rfl nofun
      | some x =>
        obtain ⟨nr, k, c⟩ := x
        rw [hf] at h
        dsimp only at h
        unfold rxNeigh at h
        by_cases hn : home i = nr
        · subst hn
          cases c with
          | none =>
            dsimp only at h
            generalize hw : worldOf _ (home i) _ true rimOk = w at h
            cases h
            refine real (.addr w k none) ?_ ?_ ⟨_, _, rimOk, m, rfl, rfl, hf, ?_, ?_, ?_⟩ fun _ => rfl
            · show (if home i = home i then _ else _ : Option Ctx × List Nacc.Out).1 = _
              rw [if_pos rfl]
              cases s.nacc i <;> rfl
            · show (if home i = home i then _ else _ : Option Ctx × List Nacc.Out).2 = _
              rw [if_pos rfl]
              cases s.nacc i <;> rfl
            · exact world_ok hr' hw rfl rfl rfl
            · rw [← hw]; rfl
            · rw [← hw]; rfl
          | some g =>
            dsimp only at h
            generalize hw : worldOf _ (home i) _ true rimOk = w at h
            cases h
            refine real (.addr w k (some g)) ?_ ?_ ⟨_, _, rimOk, m, rfl, rfl, hf, ?_, ?_, ?_⟩ fun _ => rfl
            · show (if home i = home i then _ else _ : Option Ctx × List Nacc.Out).1 = _
              rw [if_pos rfl]
              cases s.nacc i <;> rfl
            · show (if home i = home i then _ else _ : Option Ctx × List Nacc.Out).2 = _
              rw [if_pos rfl]
              cases s.nacc i <;> rfl
            · exact world_ok hr' hw rfl rfl rfl
            · rw [← hw]; rfl
            · rw [← hw]; rfl
        · refine quiet ?_ ?_ nofun
          · cases c <;>
            · cases h
              show (if home i = nr then _ else _ : Option Ctx × List Nacc.Out).1 = _
              rw [if_neg hn]
          · cases c <;>
            · cases h
              show (if home i = nr then _ else _ : Option Ctx × List Nacc.Out).2 = _
              rw [if_neg hn]
  | rim p =>
    have h0 := h
    rw [step_rim] at h
    obtain ⟨hm, ⟨rfl, h2⟩ | ⟨c, nr, b, g, v, _, _, h2, h3⟩⟩ := rim_inv (s0 := s') h
    · exact quiet rfl (by rw [hm]) nofun
    · by_cases hn : home i = nr
      · refine real (.si g v) ?_ ?_ ⟨_, _, rfl, h2⟩ fun _ => rfl
        · rw [h3]
          show (if home i = nr then _ else _) = _
          rw [if_pos hn]
          cases s.nacc i <;> rfl
        · rw [hm]
          cases s.nacc i <;> rfl
      · refine quiet ?_ (by rw [hm]) nofun
        rw [h3]
        show (if home i = nr then _ else _) = _
        rw [if_neg hn]
  | notify q r j n =>
    by_cases hj : i = j
    · subst hj
      obtain ⟨h1, h2⟩ := hst q r n rfl
      rw [(step_one home e s i).1] at h
      have hb : s'.bts (home i) = s.bts (home i) := by cases h; rfl
      rw [hb] at h1 h2
      unfold one at h
      dsimp only at h
      rw [h1, h2] at h
      generalize hw : worldOf s (home i) _ q r = w at h
      cases h
      refine real (.notify w n) ?_ ?_ ⟨_, _, q, r, rfl, rfl, ?_, ?_, ?_⟩ ?_
      · show (if i = i then _ else _) = _
        rw [if_pos rfl]
      · show (if i = i then _ else _) = _
        rw [if_pos rfl]
      · exact world_ok hr' hw rfl rfl rfl
      · rw [← hw]; rfl
      · rw [← hw]; rfl
      · intro o
        show o.foldl Mob.receive (if i = i then _ else _) = _
        rw [if_pos rfl]
        rfl
    · rw [(step_one home e s j).1] at h
      refine quiet ?_ ?_ (by intro q' r' n' he; cases he; exact hj rfl)
      · cases h
        show (if i = j then _ else _) = _
        rw [if_neg hj]
      · cases h
        show (if i = j then _ else _) = _
        rw [if_neg hj]
  | rts j p => rw [(step_one home e s j).2.1] at h; exact onep j _ h (by intro _ _ _ h; cases h) (by intro _ _ _ h; cases h) fun _ _ => trivial
  | ack j p => rw [(step_one home e s j).2.2.1] at h; exact onep j _ h (by intro _ _ _ h; cases h) (by intro _ _ _ h; cases h) fun _ _ => trivial
  | noAck j p => rw [(step_one home e s j).2.2.2.1] at h; exact onep j _ h (by intro _ _ _ h; cases h) (by intro _ _ _ h; cases h) fun _ _ => trivial
  | timer j => rw [(step_one home e s j).2.2.2.2] at h; exact onep j _ h (by intro _ _ _ h; cases h) (by intro _ _ _ h; cases h) fun hj _ => ⟨_, _, rfl, by rw [hj]⟩
  | wait d => cases h; exact quiet rfl rfl nofun
  | cleanNeigh => cases h; exact quiet rfl rfl nofun
  | cleanSi => cases h; exact quiet rfl rfl nofun
  | keepNeigh d => cases h; exact quiet rfl rfl nofun
  | keepSi d => cases h; exact quiet rfl rfl nofun

theorem run_proj {home : Nat → Nat} {e : Env} {l : List Did} {s : Pcu} (h : Run home e l s) (i lac ci : Nat) :
    Steady home i lac ci l → ∃ es, Proj (home i) i lac ci l es (s.nacc i) := by
  induction h with
  | init => exact fun _ => ⟨[], .nil⟩
  | step ev hr hs ih =>
    intro hst
    obtain ⟨es, hp⟩ := ih fun d hd => hst d (List.mem_cons_of_mem _ hd)
    exact step_mob hr hs i lac ci (fun q r n he => hst _ List.mem_cons_self q r n he) hp

/-- What a mobile gets comes from its procedure. -/
theorem mob_from {home : Nat → Nat} {e : Env} {s s' : Pcu} {ev : In} {net : List Net} {mob : Nat → List Nacc.Out}
    (h : step home e s ev = .ok s' net mob) {i : Nat} {o : Nacc.Out} (ho : o ∈ mob i) : ∃ a b x, o ∈ (Nacc.step a b (s.nacc i) x).2 := by
  have onep : ∀ (j : Nat) (f : Bts → Nacc.Ev), one home s j f = .ok s' net mob → ∃ a b x, o ∈ (Nacc.step a b (s.nacc i) x).2 := by
    intro j f h1
    cases h1
    have ho : o ∈ (if i = j then _ else []) := ho
    by_cases hj : i = j
    · subst hj
      rw [if_pos rfl] at ho
      exact ⟨_, _, _, ho⟩
    · rw [if_neg hj] at ho; cases ho
  cases ev with
  | bts rimOk m =>
    change rxBts home e s rimOk m = _ at h
    unfold rxBts at h
    cases hx : rx e s.l1 m with
    | exit => rw [hx] at h; cases h
    | abort => rw [hx] at h; cases h
    | outside => rw [hx] at h; cases h
    | ok l1 out acc =>
      rw [hx] at h
      dsimp only at h
      cases hf : out.findSome? neighOf with
      | none => rw [hf] at h; cases h; cases ho
      | some x =>
        obtain ⟨nr, k, c⟩ := x
        rw [hf] at h
        dsimp only at h
        unfold rxNeigh at h
        have key : ∀ w : Nacc.World, o ∈ (if home i = nr then (match s.nacc i with
            | some x => let y := Nacc.addr w x k c; (some y.1, y.2) | none => (none, [])) else (s.nacc i, [])).2 →
            ∃ a b x, o ∈ (Nacc.step a b (s.nacc i) x).2 := by
          intro w ho
          by_cases hn : home i = nr
          · rw [if_pos hn] at ho
            cases hc : s.nacc i with
            | none => rw [hc] at ho; cases ho
            | some x =>
              rw [hc] at ho
              exact ⟨0, 0, .addr w k c, ho⟩
          · rw [if_neg hn] at ho; cases ho
        cases c with
        | none => cases h; exact key _ ho
        | some g => cases h; exact key _ ho
  | rim p =>
    rw [step_rim] at h
    obtain ⟨hm, _⟩ := rim_inv (s0 := s') h
    rw [hm] at ho; cases ho
  | notify q r j n => rw [(step_one home e s j).1] at h; exact onep j _ h
  | rts j p => rw [(step_one home e s j).2.1] at h; exact onep j _ h
  | ack j p => rw [(step_one home e s j).2.2.1] at h; exact onep j _ h
  | noAck j p => rw [(step_one home e s j).2.2.2.1] at h; exact onep j _ h
  | timer j => rw [(step_one home e s j).2.2.2.2] at h; exact onep j _ h
  | wait d => cases h; cases ho
  | cleanNeigh => cases h; cases ho
  | cleanSi => cases h; cases ho
  | keepNeigh d => cases h; cases ho
  | keepSi d => cases h; cases ho

end Verif.Rim
