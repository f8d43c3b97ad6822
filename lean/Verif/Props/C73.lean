import Verif.Lemmas.RimMob
import Verif.Props.C72
/-!
C73: a mobile that changes the cell gets what the network last said about the new cell.

`view i l` (Spec/Rim): the cell that mobile `i` asks for and the containers that it got since, in a history `l` of the PCU (latest event first).
`Did.told`, `Did.report`: addresses given by BTSs and system information reported by other networks, from the octets and fields of the messages.
-/

namespace Verif.Rim

open BtsMsg PcuIf
open Verif.Nacc (Key Cgi Si Ctx Notif Mob)

theorem Once.mono {P Q : List Did → Prop} {l1 l2 : List Did} (h : Once P l1 l2) (hpq : ∀ l, P l → Q l) : Once Q l1 l2 := by
  obtain ⟨a, b, h1, h2, h3⟩ := h
  exact ⟨a, b, h1, h2, hpq _ h3⟩

/-- In all histories: when mobile `i` is told to go to a cell, it is the cell that it asked for. Since it asked (`l1`): either the network gave no
information and the mobile got none, or the containers it got are, put together, the system information `v` of a cell `g`, such that since the mobile
asked `g` was the address that a BTS last gave for the cell, and `v` was what the network last reported about `g`. Partial: as C41, and the BTS of
the mobile keeps its location area and cell identity (`Steady`). -/
theorem C73_continue_partial (home : Nat → Nat) (e : Env) (l : List Did) (s s' : Pcu) (h : Run home e l s) (i lac ci : Nat)
    (hs : Steady home i lac ci l) (hg : AsksGsm i l) (ha : Abroad (home i) l) (ev : In) (net : List Net) (mob : Nat → List Nacc.Out)
    (hx : step home e s ev = .ok s' net mob) (id : Option (Nat × Nat)) (hc : .cont id ∈ mob i) :
    ∃ arfcn bsic, (view i l).asked = some (some (arfcn, bsic)) ∧ id = some (arfcn, bsic) ∧
      ∃ l1 l2, l = l1 ++ l2 ∧ (view i l2).asked ≠ some (some (arfcn, bsic)) ∧
        (((view i l).got = [] ∧ GaveUp home i l1) ∨
         ∃ g v, Once (LastAddress · ⟨lac, ci, arfcn, bsic⟩ g) l1 l2 ∧ Once (LastReport · g v) l1 l2 ∧ (view i l).got ≠ [] ∧
          (v.octets.length ≤ 573 → Nacc.assemble (if v.psi then 1 else 0) (arfcn, bsic) (view i l).got = some v.octets)) := by
  obtain ⟨es, hp⟩ := run_proj h i lac ci hs
  -- where the events come from
  obtain ⟨la, lb, xb, hl, hpb, horig⟩ := hp.split (cur := es) (es' := []) (List.append_nil es).symm
  have horig' : ∀ x ∈ es, ∃ a b, l = a ++ b ∧ Origin (home i) i b x := by
    intro x hx
    obtain ⟨a, b, h1, _, h3⟩ := horig x hx
    exact ⟨a, b ++ lb, by rw [hl, h1, List.append_assoc], h3⟩
  have hog : Nacc.OnlyGsm es := by
    intro x hx w n hxn
    subst hxn
    obtain ⟨a, b, rfl, d, b', q, r, rfl, h2, _⟩ := horig' _ hx
    exact hg d (List.mem_append_right _ List.mem_cons_self) q r n h2
  have told_of : ∀ {b : List Did} {k : Key} {g : Cgi}, LastAddress b k g → ∃ d ∈ b, d.told = some (k, g) := by
    rintro b k g ⟨a1, d, a2, rfl, h1, _⟩
    exact ⟨d, List.mem_append_right _ List.mem_cons_self, h1⟩
  have haddr : ∀ x ∈ es, ∀ k g, ((∃ w, x.world = some w ∧ w.neigh k = some g) ∨ ∃ w, x = .addr w k (some g)) → ∃ d ∈ l, d.told = some (k, g) := by
    intro x hx k g hxk
    obtain ⟨a, b, rfl, ho⟩ := horig' x hx
    have up : (∃ d ∈ b, d.told = some (k, g)) → ∃ d ∈ a ++ b, d.told = some (k, g) := fun ⟨d, hd, ht⟩ => ⟨d, List.mem_append_right _ hd, ht⟩
    rcases hxk with ⟨w, hw, hk⟩ | ⟨w, rfl⟩
    · cases x with
      | notify w' n =>
        cases hw
        obtain ⟨d, b', q, r, rfl, _, hok, _⟩ := ho
        exact up (told_of (hok.1 k g hk))
      | addr w' k' c =>
        cases hw
        obtain ⟨d, b', q, m, rfl, _, _, hok, _⟩ := ho
        exact up (told_of (hok.1 k g hk))
      | _ => cases hw
    · obtain ⟨d, b', q, m, rfl, h1, h2, _⟩ := ho
      refine up ⟨d, List.mem_cons_self, ?_⟩
      unfold Did.told
      rw [h1]
      show (told m).bind _ = _
      rw [h2]
      rfl
  have hnl : Nacc.NoLocal es := by
    intro x hx w hw k g ⟨y, hy, hyk⟩ c hc hcg
    obtain ⟨d', hd', ht⟩ := haddr y hy k g hyk
    obtain ⟨a, b, rfl, ho⟩ := horig' x hx
    have hok : WorldOk (home i) b w := by
      cases x with
      | notify w' n => cases hw; obtain ⟨d, b', q, r, rfl, _, hok, _⟩ := ho; exact hok
      | addr w' k' c => cases hw; obtain ⟨d, b', q, m, rfl, _, _, hok, _⟩ := ho; exact hok
      | _ => cases hw
    obtain ⟨d, hd, z, hz, h1, h2⟩ := hok.2.2 c hc
    exact ha d' hd' k g ht d (List.mem_append_right _ hd) z hz h1 (h2.trans hcg)
  -- the event that sends it
  have hstep : ∃ x, .cont id ∈ (Nacc.step lac ci (s.nacc i) x).2 := by
    obtain ⟨a, b, x, hx'⟩ := mob_from hx hc
    obtain ⟨c, p, hxc, rfl, hr⟩ := Nacc.from_rts hx' (by rintro (⟨_, h⟩ | ⟨_, h⟩) <;> cases h) nofun
    refine ⟨.rts p, ?_⟩
    rw [hxc]
    exact hr
  obtain ⟨x, hx'⟩ := hstep
  obtain ⟨arfcn, bsic, h1, h2, cur, ⟨es2, x2, m2, h3, h4, h5⟩, h6⟩ := Nacc.C41_continue_partial hp.hist hog hnl x id hx'
  refine ⟨arfcn, bsic, h1, h2, ?_⟩
  obtain ⟨l1, l2, x3, rfl, hp2, ho⟩ := hp.split h3
  refine ⟨l1, l2, rfl, ?_, ?_⟩
  · rw [(hist_fun hp2.hist h4).2]; exact h5
  · have sub : ∀ {a b : List Did} {d : Did} {b' : List Did}, b ≠ [] → b ++ l2 = d :: b' → l1 = a ++ b → d ∈ l1 := by
      intro a b d b' hb he hl1
      cases b with
      | nil => exact absurd rfl hb
      | cons d' b =>
        injection he with he _
        rw [hl1, he]
        exact List.mem_append_right _ List.mem_cons_self
    rcases h6 with ⟨h6, y, hy, hf⟩ | ⟨g, v, ⟨y, hy, hya⟩, ⟨z, hz, hzi⟩, h7, h8⟩
    · left
      refine ⟨h6, ?_⟩
      obtain ⟨a, b, hl1, hb, hor⟩ := ho y hy
      rcases hf with ⟨w, hw, hf⟩ | ⟨w, k, rfl⟩ | rfl
      · cases y with
        | notify w' n =>
          cases hw
          obtain ⟨d, b', q, r, he, h9, _, hq, hr⟩ := hor
          refine ⟨d, sub hb he hl1, .inl ⟨q, r, n, h9, ?_⟩⟩
          rw [← hq, ← hr]; exact hf
        | addr w' k' c =>
          cases hw
          obtain ⟨d, b', q, m, he, h9, h10, _, hq, hr⟩ := hor
          refine ⟨d, sub hb he hl1, .inr (.inl ⟨q, m, k', c, h9, h10, .inl ?_⟩)⟩
          rcases hf with hf | hf
          · rw [hq] at hf; cases hf
          · rw [← hr]; exact hf
        | _ => cases hw
      · obtain ⟨d, b', q, m, he, h9, h10, _⟩ := hor
        exact ⟨d, sub hb he hl1, .inr (.inl ⟨q, m, k, none, h9, h10, .inr rfl⟩)⟩
      · obtain ⟨d, b', he, h9⟩ := hor
        exact ⟨d, sub hb he hl1, .inr (.inr h9)⟩
    · right
      refine ⟨g, v, ?_, ?_, h7, h8⟩
      · obtain ⟨a, b, hl1, hb, hor⟩ := ho y hy
        refine ⟨a, b, hl1, hb, ?_⟩
        rcases hya with ⟨w, hw, hk⟩ | ⟨w, rfl⟩
        · cases y with
          | notify w' n => cases hw; obtain ⟨d, b', q, r, he, _, hok, _⟩ := hor; exact hok.1 _ _ hk
          | addr w' k' c => cases hw; obtain ⟨d, b', q, m, he, _, _, hok, _⟩ := hor; exact hok.1 _ _ hk
          | _ => cases hw
        · obtain ⟨d, b', q, m, he, h9, h10, _⟩ := hor
          refine ⟨[], d, b', he, ?_, nofun⟩
          unfold Did.told
          rw [h9]
          show (told m).bind _ = _
          rw [h10]
          rfl
      · obtain ⟨a, b, hl1, hb, hor⟩ := ho z hz
        refine ⟨a, b, hl1, hb, ?_⟩
        rcases hzi with ⟨w, hw, hk⟩ | rfl
        · cases z with
          | notify w' n => cases hw; obtain ⟨d, b', q, r, he, _, hok, _⟩ := hor; exact hok.2.1 _ _ hk
          | addr w' k' c => cases hw; obtain ⟨d, b', q, m, he, _, _, hok, _⟩ := hor; exact hok.2.1 _ _ hk
          | _ => cases hw
        · obtain ⟨d, b', he, h9⟩ := hor
          exact ⟨[], d, b', he, h9, nofun⟩

/-! ### Two PCUs -/

/-- Reports that a PCU sends have the system information of one of its BTSs. -/
theorem report_sent {home : Nat → Nat} {e : Env} {s s' : Pcu} {ev : In} {net : List Net} {mob : Nat → List Nacc.Out}
    (h : step home e s ev = .ok s' net mob) {dst src : Routing} {a b c d : Nat} {g : Cgi} {psi : Bool} {si : List (List Nat)}
    (hn : .pdu dst src (.info a b c d (.si g psi si)) ∈ net) : s' = s ∧ ev.btsMsg = none ∧ ∃ x ∈ s.l1.bts, si = siList x.2 := by
  obtain ⟨p, x, rfl, rfl, rfl⟩ := C72_only_answers _ _ _ _ _ _ _ h (List.ne_nil_of_mem hn)
  refine ⟨rfl, rfl, ?_⟩
  obtain rfl := List.mem_singleton.1 hn
  rw [step_rim] at h
  unfold handleRim at h
  cases hd : p.dst with
  | other id => rw [hd] at h; cases h
  | geran c =>
    rw [hd] at h
    dsimp only at h
    cases hb : byCgi s'.l1 c with
    | none => rw [hb] at h; cases h
    | some x =>
      obtain ⟨nr, b⟩ := x
      rw [hb] at h
      dsimp only at h
      cases hbody : p.body with
      | none => rw [hbody] at h; cases h
      | some body =>
        rw [hbody] at h
        cases body with
        | request app seq type ver cell =>
          dsimp only at h
          injection h with h1 h2 h3
          unfold handleRequest at h2
          by_cases ha : app ≠ 1
          · rw [if_pos ha] at h2; unfold errorFor at h2; simp at h2
          rw [if_neg ha] at h2
          by_cases hc : b.cgi ≠ cell
          · rw [if_pos hc] at h2; unfold errorFor at h2; simp at h2
          rw [if_neg hc] at h2
          cases hcell : s'.cell with
          | none => rw [hcell] at h2; cases h2
          | some g' =>
            rw [hcell] at h2
            unfold response at h2
            refine ⟨(nr, b), List.mem_of_find?_eq_some hb, ?_⟩
            simp only [List.cons.injEq, Net.pdu.injEq, Body.info.injEq, Report.si.injEq, and_true] at h2
            exact h2.2.2.2.2.2.2.2.2.symm
        | info app seq type ver r =>
          cases r with
          | err => cases h
          | si g' psi' si' =>
            dsimp only at h
            split at h
            · cases h
            · unfold handleInfo at h
              split at h
              · cases h
              · injection h with _ h2 _
                cases h2
        | error => cases h
        | otherKind => cases h

theorem run_at {home : Nat → Nat} {e : Env} {l : List Did} {s : Pcu} (h : Run home e l s) : ∀ l1 d l2, l = l1 ++ d :: l2 →
    ∃ s1, Run home e l2 s1 ∧ step home e s1 d.ev = .ok d.post d.net d.mob := by
  induction h with
  | init => intro l1 d l2 he; cases l1 <;> cases he
  | step ev hr hs ih =>
    intro l1 d l2 he
    cases l1 with
    | nil =>
      injection he with h1 h2
      subst h1 h2
      exact ⟨_, hr, hs⟩
    | cons d' l1 =>
      injection he with _ he
      exact ih l1 d l2 he

theorem broadcast_len {ms : List (List Nat)} {nr : Nat} {k : SiKind} {x : Option (List Nat)} (h : Broadcast ms nr k x) :
    ∀ y, x = some y → y.length = 23 := by
  cases h with
  | sent _ _ _ _ d _ _ _ _ hl => intro y hy; rw [← Option.some.inj hy]; exact hl
  | _ => intro y hy; cases hy

/-- Two PCUs. If the reports that the PCU of the mobile gets about the cell were sent by the other PCU, which has one BTS, what a mobile gets before it
is told to go there is the system information 1, 3 and 13 that this BTS had said, when the other PCU reported, it sends. -/
theorem C73_between_pcus_partial (home : Nat → Nat) (e : Env) (l : List Did) (s s' : Pcu) (h : Run home e l s) (i lac ci : Nat)
    (hs : Steady home i lac ci l) (hg : AsksGsm i l) (ha : Abroad (home i) l) (ev : In) (net : List Net) (mob : Nat → List Nacc.Out)
    (hx : step home e s ev = .ok s' net mob) (arfcn bsic : Nat) (hc : .cont (some (arfcn, bsic)) ∈ mob i) (hgot : (view i l).got ≠ [])
    (homeB : Nat → Nat) (eB : Env) (lB : List Did) (sB : Pcu) (hB : Run homeB eB lB sB) (nr : Nat) (hone : ∀ d ∈ lB, d.post.l1.bts = [] ∨ ∃ b, d.post.l1.bts = [(nr, b)])
    (hnet : ∀ g, (∃ d ∈ l, d.told = some (⟨lac, ci, arfcn, bsic⟩, g)) → ∀ d ∈ l, ∀ v, d.report = some (g, v) →
      ∃ d' ∈ lB, ∃ dst src si, .pdu dst src (.info 1 1 1 1 (.si g false si)) ∈ d'.net ∧ v = ⟨si.flatten, false⟩) :
    (view i l).asked = some (some (arfcn, bsic)) ∧ ∃ l1 l2, lB = l1 ++ l2 ∧ ∀ x1 x3 x13, Broadcast (msgs l2) nr .si1 x1 → Broadcast (msgs l2) nr .si3 x3 →
      Broadcast (msgs l2) nr .si13 x13 → Nacc.assemble 0 (arfcn, bsic) (view i l).got = some (forRim x1 x3 x13).flatten := by
  obtain ⟨a, b, h1, h2, l1, l2, rfl, h3, h4⟩ := C73_continue_partial home e l s s' h i lac ci hs hg ha ev net mob hx _ hc
  cases h2
  refine ⟨h1, ?_⟩
  rcases h4 with ⟨h4, _⟩ | ⟨g, v, ⟨a1, b1, e1, _, c1, d, c2, f1, f2, _⟩, ⟨a2, b2, e2, _, c3, d2, c4, f3, f4, _⟩, _, h8⟩
  · exact absurd h4 hgot
  have m1 : d ∈ l1 ++ l2 := by
    rw [e1, List.append_assoc, f1]
    exact List.mem_append_right _ (List.mem_append_right _ List.mem_cons_self)
  have m2 : d2 ∈ l1 ++ l2 := by
    rw [e2, List.append_assoc, f3]
    exact List.mem_append_right _ (List.mem_append_right _ List.mem_cons_self)
  obtain ⟨d', hd', dst, src, si, hp, rfl⟩ := hnet g ⟨d, m1, f2⟩ d2 m2 v f4
  obtain ⟨k1, k2, rfl⟩ := List.append_of_mem hd'
  obtain ⟨s1, r1, r2⟩ := run_at hB k1 d' k2 rfl
  obtain ⟨q1, q2, x, hx1, hx2⟩ := report_sent r2 hp
  refine ⟨k1 ++ [d'], k2, by simp, ?_⟩
  intro x1 x3 x13 y1 y3 y13
  obtain ⟨o, z1, _⟩ := run_l1 r1
  have hb : s1.l1.bts' nr = x.2 := by
    rcases hone d' hd' with hb | ⟨b, hb⟩ <;> rw [q1] at hb <;> rw [hb] at hx1
    · cases hx1
    · obtain rfl := List.mem_singleton.1 hx1
      show (s1.l1.get nr).getD {} = b
      unfold PcuIf.St.get
      rw [hb]
      simp
  have hsi : si = forRim x1 x3 x13 := by
    rw [hx2, siList_forRim, ← hb, broadcast_si z1 y1, broadcast_si z1 y3, broadcast_si z1 y13]
  rw [← hsi]
  refine h8 ?_
  show si.flatten.length ≤ 573
  rw [hsi]
  have l1' := broadcast_len y1
  have l3' := broadcast_len y3
  have l13' := broadcast_len y13
  unfold forRim
  cases x1 <;> cases x3 <;> cases x13 <;> simp_all <;> omega

/-! ### Examples -/

/-- A history of events; those at which the PCU stops are left out. -/
def playAll (home : Nat → Nat) (e : Env) (x : List Did × Pcu) : List In → List Did × Pcu
  | [] => x
  | ev :: evs =>
    match step home e x.2 ev with
    | .ok s' net mob => playAll home e (⟨ev, net, mob, s'⟩ :: x.1, s') evs
    | _ => playAll home e x evs

theorem play_run {home : Nat → Nat} {e : Env} : ∀ (evs : List In) (x : List Did × Pcu), Run home e x.1 x.2 →
    Run home e (playAll home e x evs).1 (playAll home e x evs).2
  | [], _, h => h
  | ev :: evs, x, h => by
    rw [playAll]
    cases hs : step home e x.2 ev with
    | ok s' net mob => exact play_run evs _ (.step ev h hs)
    | stopped => exact play_run evs x h
    | outside => exact play_run evs x h

/-- BTS 0 announces itself; mobile 5 asks for a cell; the BTS gives its address; its network reports 21 octets; two blocks are sent. -/
def exHistory : List In :=
  [.bts true (msg 0x32 0 [0, 0] (exBody none)), .notify true true 5 (.gsm 871 63),
    .bts true ([0x80, 0, 0, 0, 0x82, 0, 0, 18, 1, 44, 0, 4, 3, 103, 63, 0, 0, 1, 0, 1, 0, 1, 45, 7, 0, 5]),
    .rim ⟨.geran cellA, .geran cellB, [], some (.info 1 1 1 1 (.si cellB false [0x1b :: List.replicate 20 1]))⟩, .rts 5 none, .rts 5 none]

def exPlayed : List Did × Pcu := playAll (fun _ => 0) {} ([], init 0 10 10) exHistory

/-- The hypotheses of `C73_continue_partial` in this history, with a Continue message that follows and the 21 octets as the information the mobile got. -/
theorem ex_c73 : Run (fun _ => 0) {} exPlayed.1 exPlayed.2 ∧ Steady (fun _ => 0) 5 300 4 exPlayed.1 ∧ AsksGsm 5 exPlayed.1 ∧ Abroad 0 exPlayed.1 ∧
    (∃ s' net mob, step (fun _ => 0) {} exPlayed.2 (.rts 5 (some (4, 5))) = .ok s' net mob ∧ .cont (some (871, 63)) ∈ mob 5) ∧
    (view 5 exPlayed.1).asked = some (some (871, 63)) ∧ Nacc.assemble 0 (871, 63) (view 5 exPlayed.1).got = some (0x1b :: List.replicate 20 1) := by
  refine ⟨play_run _ _ (.init 0 10 10), ?_, ?_, ?_, ?_, by decide +kernel, by decide +kernel⟩
  · have h : exPlayed.1.all fun d => match d.ev with
        | .notify _ _ 5 _ => decide ((d.post.bts 0).cgi.lac = 300 ∧ (d.post.bts 0).cgi.ci = 4)
        | _ => true := by decide +kernel
    intro d hd q r n he
    have := List.all_eq_true.1 h d hd
    rw [he] at this
    exact of_decide_eq_true this
  · have h : exPlayed.1.all fun d => match d.ev with
        | .notify _ _ 5 n => decide (n.cell ≠ none)
        | _ => true := by decide +kernel
    intro d hd q r n he
    have := List.all_eq_true.1 h d hd
    rw [he] at this
    exact of_decide_eq_true this
  · have h : exPlayed.1.all fun d => d.post.l1.bts.all fun x => decide (x.1 = 0) := by decide +kernel
    intro d' _ k g _ d hd x hx hn
    exact absurd (of_decide_eq_true (List.all_eq_true.1 (List.all_eq_true.1 h d hd) x hx)) hn
  · have h : (match step (fun _ => 0) {} exPlayed.2 (.rts 5 (some (4, 5))) with
        | .ok _ _ mob => decide (.cont (some (871, 63)) ∈ mob 5)
        | _ => false) = true := by decide +kernel
    cases hs : step (fun _ => 0) {} exPlayed.2 (.rts 5 (some (4, 5))) with
    | ok s' net mob => rw [hs] at h; exact ⟨s', net, mob, rfl, of_decide_eq_true h⟩
    | stopped => rw [hs] at h; cases h
    | outside => rw [hs] at h; cases h

/-- The other PCU: its BTS announces itself, says that it sends system information 3, then the information of its cell is asked for. -/
def exOther : List In :=
  [.bts true (msg 0x32 0 [0, 0] (((exBody none).set 910 45).set 934 5)),
    .bts true (msg 0x02 0 [0, 0] (4 :: 23 :: ([0x49, 6, 0x1b] ++ List.replicate 20 1 ++ List.replicate 155 0))),
    .rim ⟨.geran cellB, .geran cellA, [], some (.request 1 1 1 1 cellB)⟩]

def exOtherPlayed : List Did × Pcu := playAll (fun _ => 0) {} ([], init 0 10 10) exOther

/-- The hypotheses of `C73_between_pcus_partial` for the two histories. -/
theorem ex_other : Run (fun _ => 0) {} exOtherPlayed.1 exOtherPlayed.2 ∧ (∀ d ∈ exOtherPlayed.1, d.post.l1.bts = [] ∨ ∃ b, d.post.l1.bts = [(0, b)]) ∧
    (∀ g, (∃ d ∈ exPlayed.1, d.told = some (⟨300, 4, 871, 63⟩, g)) → ∀ d ∈ exPlayed.1, ∀ v, d.report = some (g, v) →
      ∃ d' ∈ exOtherPlayed.1, ∃ dst src si, .pdu dst src (.info 1 1 1 1 (.si g false si)) ∈ d'.net ∧ v = ⟨si.flatten, false⟩) := by
  refine ⟨play_run _ _ (.init 0 10 10), ?_, ?_⟩
  · have h : exOtherPlayed.1.all fun d => match d.post.l1.bts with
        | [(0, _)] => true
        | _ => false := by decide +kernel
    intro d hd
    have := List.all_eq_true.1 h d hd
    split at this
    · next b hb => exact .inr ⟨b, hb⟩
    · cases this
  · have h : exOtherPlayed.1.any fun d =>
        decide (.pdu (.geran cellA) (.geran cellB) (.info 1 1 1 1 (.si cellB false [0x1b :: List.replicate 20 1])) ∈ d.net) := by decide +kernel
    obtain ⟨d', hd', h⟩ := List.any_eq_true.1 h
    have h1 : exPlayed.1.all fun d => decide (d.report = none ∨ d.report = some (cellB, ⟨0x1b :: List.replicate 20 1, false⟩)) := by decide +kernel
    rintro g - d hd v hv
    rcases of_decide_eq_true (List.all_eq_true.1 h1 d hd) with h2 | h2 <;> rw [hv] at h2 <;> cases h2
    exact ⟨d', hd', _, _, _, of_decide_eq_true h, by simp⟩

/-- BTSs 0 and 1 of a PCU announce themselves and say which system information 3 they send; mobile 5 of BTS 0 asks for the cell of BTS 1 and is sent
two blocks. -/
def exLocal : List In :=
  [.bts true (msg 0x32 0 [0, 0] (exBody none)), .bts true (msg 0x32 1 [0, 0] (((exBody none).set 910 45).set 934 5)),
    .bts true (msg 0x02 0 [0, 0] (4 :: 23 :: ([0x49, 6, 0x1b] ++ List.replicate 20 1 ++ List.replicate 155 0))),
    .bts true (msg 0x02 1 [0, 0] (4 :: 23 :: ([0x49, 6, 0x1b] ++ List.replicate 20 2 ++ List.replicate 155 0))),
    .notify true true 5 (.gsm 871 63),
    .bts true ([0x80, 0, 0, 0, 0x82, 0, 0, 18, 1, 44, 0, 4, 3, 103, 63, 0, 0, 1, 0, 1, 0, 1, 45, 7, 0, 5]), .rts 5 none, .rts 5 none]

def exLocalPlayed : List Did × Pcu := playAll (fun _ => 0) {} ([], init 0 10 10) exLocal

/-- The property fails for a cell of the same PCU (`Abroad` is needed): the mobile is told to go to the cell of BTS 1, that sends system information 3 with
twos, after it got that of its own cell, that has ones. -/
theorem C73_local_fails : Run (fun _ => 0) {} exLocalPlayed.1 exLocalPlayed.2 ∧ (∀ d ∈ exLocalPlayed.1, d.report = none) ∧
    (∃ d ∈ exLocalPlayed.1, d.told = some (⟨300, 4, 871, 63⟩, cellB)) ∧
    (∃ x ∈ exLocalPlayed.2.l1.bts, x.1 = 1 ∧ x.2.cgi = cellB ∧ x.2.si3 = some ([0x49, 6, 0x1b] ++ List.replicate 20 2)) ∧
    (view 5 exLocalPlayed.1).asked = some (some (871, 63)) ∧
    (∃ s' net mob, step (fun _ => 0) {} exLocalPlayed.2 (.rts 5 (some (4, 5))) = .ok s' net mob ∧ .cont (some (871, 63)) ∈ mob 5) ∧
    Nacc.assemble 0 (871, 63) (view 5 exLocalPlayed.1).got = some (0x1b :: List.replicate 20 1) := by
  refine ⟨play_run _ _ (.init 0 10 10), ?_, ?_, ?_, by decide +kernel, ?_, by decide +kernel⟩
  · have h : (exLocalPlayed.1.all fun d => decide (d.report = none)) = true := by decide +kernel
    exact fun d hd => of_decide_eq_true (List.all_eq_true.1 h d hd)
  · have h : (exLocalPlayed.1.any fun d => decide (d.told = some (⟨300, 4, 871, 63⟩, cellB))) = true := by decide +kernel
    obtain ⟨d, hd, h⟩ := List.any_eq_true.1 h
    exact ⟨d, hd, of_decide_eq_true h⟩
  · have h : (exLocalPlayed.2.l1.bts.any fun x => decide (x.1 = 1 ∧ x.2.cgi = cellB ∧ x.2.si3 = some ([0x49, 6, 0x1b] ++ List.replicate 20 2))) = true := by
      decide +kernel
    obtain ⟨d, hd, h⟩ := List.any_eq_true.1 h
    exact ⟨d, hd, of_decide_eq_true h⟩
  · have h : (match step (fun _ => 0) {} exLocalPlayed.2 (.rts 5 (some (4, 5))) with
        | .ok _ _ mob => decide (.cont (some (871, 63)) ∈ mob 5)
        | _ => false) = true := by decide +kernel
    cases hs : step (fun _ => 0) {} exLocalPlayed.2 (.rts 5 (some (4, 5))) with
    | ok s' net mob => rw [hs] at h; exact ⟨s', net, mob, rfl, of_decide_eq_true h⟩
    | stopped => rw [hs] at h; cases h
    | outside => rw [hs] at h; cases h

end Verif.Rim
