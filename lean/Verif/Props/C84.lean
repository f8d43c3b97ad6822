import Verif.Lemmas.Counters
import Verif.Props.C21
/-!
# C84: The counters of a cell add up

`run cfg World.init ops` is the BTS after any history (see C21); `made`, `gone` and `fails` are the counters of
allocated and released TBFs and of failed allocations. `rachRun` counts any sequence of requests on the RACH.
`SbHist` are the histories of the single blocks of a PDCH.

* `C84_tbf`: TBFs allocated are TBFs released and TBFs that exist, for each direction.
* `C84_request`: a request for a TBF is counted once: as an allocated TBF, which then exists, or as a failure.
* `C84_rach`: every request on the RACH is counted as one phase, two phase or unexpected, and as an assignment
  or a rejection; what is assigned is what is counted.
* `C84_sba_partial`: single blocks allocated are single blocks released and single blocks reserved. Missing:
  a Packet Cell Change Notification in a single block, and disabling a PDCH with one: `C84_fails`.
-/

namespace Verif.Alloc

/-- After any history, for each direction: TBFs allocated = TBFs released + TBFs that exist. -/
theorem C84_tbf (cfg : Cfg) (ops : List Op) (w : World) (h : run cfg World.init ops = some w) (d : Dir) :
    w.made d = w.gone d + existing w d := (bal_run h).sum d

/-- A request for a TBF by a mobile of the cell either makes one TBF, of the direction asked for, and counts it
as allocated, or makes none and counts one failure. -/
theorem C84_request (cfg : Cfg) (ops : List Op) (w : World) (h : run cfg World.init ops = some w) (m : Nat)
    (hm : m < w.msN) (req : Req) (e : Bool) :
    ∃ w', run cfg World.init (ops ++ [.alloc m req e]) = some w' ∧ w'.gone = w.gone ∧
      ((w'.fails = w.fails ∧ ∀ d, w'.made d = w.made d + (if d = req.dir then 1 else 0) ∧
          existing w' d = existing w d + (if d = req.dir then 1 else 0)) ∨
       (w'.fails = w.fails + 1 ∧ ∀ d, w'.made d = w.made d ∧ existing w' d = existing w d)) := by
  obtain ⟨w', h', -⟩ := step_inv (cfg := cfg) (reachable_inv h) (.alloc m req e)
  have hrun : run cfg World.init (ops ++ [.alloc m req e]) = some w' := by
    unfold run at h ⊢
    rw [List.foldlM_append, h]
    show (List.foldlM (step cfg) w [.alloc m req e]) = _
    simp only [List.foldlM_cons, List.foldlM_nil, h']
    rfl
  refine ⟨w', hrun, ?_⟩
  simp only [step, if_pos hm] at h'
  unfold allocTbf at h'
  dsimp only at h'
  split at h'
  · cases h'
    exact ⟨rfl, .inr ⟨rfl, fun d => ⟨rfl, rfl⟩⟩⟩
  · have k := keep_takeRes h'
    refine ⟨k.gone, .inl ⟨k.fails, fun d => ⟨?_, ?_⟩⟩⟩
    · rw [k.made]
      show incCtr w.made req.dir d = _
      unfold incCtr
      by_cases hd : d = req.dir <;> simp [hd]
    · rw [existing_keep k.tbfN k.kind]
      exact existing_new (w := w) (x := ⟨req.dir, m, e, none, none, fun _ => false, fun _ => 255⟩) rfl
        (by simp [newTbf, World.setTbf]) (fun b hb => by simp [newTbf, World.setTbf, hb]) d

/-- A request fails, as there is no PDCH yet; then two TBFs are allocated, and one of them is released. -/
def c84Ops : List Op := [.newMs 10, .newMs 0, .alloc 1 ⟨.dl, false, none⟩ false, .enable 0 7 0,
  .alloc 0 ⟨.dl, false, none⟩ false, .alloc 1 ⟨.ul, true, none⟩ false, .free 0]

example : ∃ w, run ⟨.a, 0⟩ World.init c84Ops = some w ∧ w.made .dl = 1 ∧ w.gone .dl = 1 ∧ existing w .dl = 0 ∧
    w.made .ul = 1 ∧ w.gone .ul = 0 ∧ existing w .ul = 1 ∧ w.fails = 1 ∧ 1 < w.msN :=
  ⟨(run ⟨.a, 0⟩ World.init c84Ops).get rfl, rfl, by decide, by decide, by decide, by decide, by decide, by decide,
    by decide, by decide⟩

end Verif.Alloc

namespace Verif.Rach

theorem rcvRachC_res (e : Env) (c : Ctr) (i : Ind) : (rcvRachC e c i).2 = rcvRach e i := by
  unfold rcvRachC rcvRach
  dsimp only
  cases parse i with
  | none => rfl
  | some r =>
    dsimp only
    by_cases h : (r.single || e.forceTwoPhase) = true
    · rw [if_pos h, if_pos h]
      cases allocSba e (qta2ta i.qta) <;> rfl
    · rw [if_neg h, if_neg h]
      cases e.tbf r.cls <;> rfl

/-- What one request adds to the counters. -/
theorem rcvRachC_add (e : Env) (c : Ctr) (i : Ind) :
    let c' := (rcvRachC e c i).1
    let r := (rcvRachC e c i).2
    c'.req = c.req + 1 ∧ c'.req11 = c.req11 + (if i.is11 then 1 else 0) ∧
    c'.one + c'.two + c'.unexp = c.one + c.two + c.unexp + 1 ∧
    c'.unexp = c.unexp + (if (parse i).isNone then 1 else 0) ∧
    c'.two = c.two + (if (parse i).any (·.single) then 1 else 0) ∧
    c'.ass + c'.rej = c.ass + c.rej + 1 ∧
    c'.assTwo = c.assTwo + (if r.sba.isSome then 1 else 0) ∧
    c'.sba = c.sba + (if r.sba.isSome then 1 else 0) ∧
    c'.assOne = c.assOne + (if r.tbf.isSome then 1 else 0) ∧
    c'.ass = c.ass + (if r.sba.isSome || r.tbf.isSome then 1 else 0) ∧ (r.sba.isSome && r.tbf.isSome) = false := by
  unfold rcvRachC
  dsimp only
  cases hp : parse i with
  | none => simp [Ctr.arrive, sendReject]; split <;> simp <;> omega
  | some r =>
    dsimp only
    have k : ∀ b, ((c.arrive i).kind b).req = c.req + 1 ∧
        ((c.arrive i).kind b).req11 = c.req11 + (if i.is11 then 1 else 0) ∧
        ((c.arrive i).kind b).one = c.one + (if b then 0 else 1) ∧ ((c.arrive i).kind b).two = c.two + (if b then 1 else 0) ∧
        ((c.arrive i).kind b).unexp = c.unexp ∧ ((c.arrive i).kind b).ass = c.ass ∧
        ((c.arrive i).kind b).assOne = c.assOne ∧ ((c.arrive i).kind b).assTwo = c.assTwo ∧
        ((c.arrive i).kind b).rej = c.rej ∧ ((c.arrive i).kind b).sba = c.sba := by
      intro b
      unfold Ctr.arrive Ctr.kind
      cases b <;> cases i.is11 <;> simp
    obtain ⟨k1, k2, k3, k4, k5, k6, k7, k8, k9, k10⟩ := k r.single
    split
    · split
      · simp only [sendReject]; cases hs : r.single <;> simp_all <;> omega
      · cases hs : r.single <;> simp_all <;> omega
    · split
      · simp only [sendReject]; cases hs : r.single <;> simp_all <;> omega
      · cases hs : r.single <;> simp_all <;> omega

/-- Any sequence of requests on the RACH, each met by any situation. The results are those of the requests
(`rcvRach`, see C49). Every request is counted, also as an 11 bit request if it is one; and as one phase, two
phase or unexpected access: unexpected if it cannot be decoded, two phase if it asks for a single block. Every
request is counted as an assignment or as a rejection; the assignments are those of a TBF (one phase) and
those of a single block (two phase), as many as there were. -/
theorem C84_rach (l : List (Env × Ind)) :
    let c := (rachRun {} l).1
    let rs := (rachRun {} l).2
    rs = l.map (fun x => rcvRach x.1 x.2) ∧
    c.req = l.length ∧ c.req11 = l.countP (fun x => x.2.is11) ∧
    c.req = c.one + c.two + c.unexp ∧
    c.unexp = l.countP (fun x => (parse x.2).isNone) ∧
    c.two = l.countP (fun x => (parse x.2).any (·.single)) ∧
    c.req = c.ass + c.rej ∧ c.ass = c.assOne + c.assTwo ∧
    c.assOne = rs.countP (fun r => r.tbf.isSome) ∧ c.assTwo = rs.countP (fun r => r.sba.isSome) ∧
    c.sba = c.assTwo := by
  have gen : ∀ (l : List (Env × Ind)) (c0 : Ctr),
      let c := (rachRun c0 l).1
      let rs := (rachRun c0 l).2
      rs = l.map (fun x => rcvRach x.1 x.2) ∧
      c.req = c0.req + l.length ∧ c.req11 = c0.req11 + l.countP (fun x => x.2.is11) ∧
      c.one + c.two + c.unexp = c0.one + c0.two + c0.unexp + l.length ∧
      c.unexp = c0.unexp + l.countP (fun x => (parse x.2).isNone) ∧
      c.two = c0.two + l.countP (fun x => (parse x.2).any (·.single)) ∧
      c.ass + c.rej = c0.ass + c0.rej + l.length ∧
      c.ass + c0.assOne + c0.assTwo = c0.ass + c.assOne + c.assTwo ∧
      c.assOne = c0.assOne + rs.countP (fun r => r.tbf.isSome) ∧
      c.assTwo = c0.assTwo + rs.countP (fun r => r.sba.isSome) ∧
      c.sba + c0.assTwo = c0.sba + c.assTwo := by
    intro l
    induction l with
    | nil => intro c0; simp [rachRun]
    | cons x l ih =>
      intro c0
      obtain ⟨e, i⟩ := x
      have a := rcvRachC_add e c0 i
      have b := ih (rcvRachC e c0 i).1
      have r := rcvRachC_res e c0 i
      dsimp only at a b ⊢
      simp only [rachRun, List.countP_cons, List.length_cons, List.map_cons]
      generalize (rcvRachC e c0 i).1 = c1 at a b ⊢
      generalize rachRun c1 l = y at b ⊢
      obtain ⟨a1, a2, a3, a4, a5, a6, a7, a8, a9, a10, a11⟩ := a
      obtain ⟨b1, b2, b3, b4, b5, b6, b7, b8, b9, b10, b11⟩ := b
      refine ⟨by rw [r, b1], by omega, by omega, by omega, by omega, by omega, by omega, ?_, by omega, by omega, ?_⟩
      · cases h1 : (rcvRachC e c0 i).2.sba.isSome <;> cases h2 : (rcvRachC e c0 i).2.tbf.isSome <;> simp_all <;> omega
      · omega
  have := gen l {}
  dsimp only at this ⊢
  obtain ⟨b1, b2, b3, b4, b5, b6, b7, b8, b9, b10, b11⟩ := this
  exact ⟨b1, by omega, by omega, by omega, by omega, by omega, by omega, by omega, by omega, by omega, by omega⟩

end Verif.Rach

namespace Verif.Ulc

open Verif.Fn

theorem sbaCount_eq (l : List Node) : sbaCount l = l.countP (·.owner.isSba) := by
  unfold sbaCount
  rw [List.countP_eq_length_filter]
  congr 2

theorem count_releaseTbf (l : List Node) (t : Nat) : (releaseTbf l t).countP (·.owner.isSba) = l.countP (·.owner.isSba) := by
  rw [releaseTbf_spec, List.countP_filter]
  refine List.countP_congr fun n _ => ?_
  cases hn : n.owner <;> simp [Owner.isSba, Owner.tbf?]

theorem count_foldl (ts : List Nat) (l : List Node) :
    (ts.foldl releaseTbf l).countP (·.owner.isSba) = l.countP (·.owner.isSba) := by
  induction ts generalizing l with
  | nil => rfl
  | cons t ts ih => rw [List.foldl_cons, ih, count_releaseTbf]

theorem length_releaseTbf (ts : List Nat) (l : List Node) : (ts.foldl releaseTbf l).length ≤ l.length := by
  rw [foldl_release]; exact List.length_filter_le _ _

theorem count_expire (freed : Node → List Nat) (fn : Nat) : ∀ (n : Nat) (l : List Node),
    (expire freed fn n l).1.countP (·.owner.isSba) + (expire freed fn n l).2.countP (·.owner.isSba) =
      l.countP (·.owner.isSba) := by
  intro n
  induction n with
  | zero => intro l; simp [expire]
  | succ n ih =>
    intro l
    cases l with
    | nil => simp [expire]
    | cons it l =>
      unfold expire
      split
      · simp
      · have := ih ((freed it).foldl releaseTbf l)
        rw [count_foldl] at this
        dsimp only
        rw [List.countP_cons, List.countP_cons]
        omega

theorem count_reserve {b : Nat} {l : List Node} (h : Reach b l) (fn : Nat) (o : Owner) (hx : fn < H) (ox : fnSub fn b < W) :
    (reserve l fn o).2.countP (·.owner.isSba) =
      l.countP (·.owner.isSba) + if (reserve l fn o).1 && o.isSba then 1 else 0 := by
  unfold reserve
  rcases addNode_spec (reach_window h) ⟨fn, o⟩ hx ox with ⟨e, -⟩ | ⟨l1, l2, e1, e2, -, -⟩
  · rw [e]; simp
  · rw [e2]
    dsimp only
    rw [e1]
    simp only [List.countP_append, List.countP_cons, Bool.true_and]
    omega

theorem count_filter_none {l : List Node} {fn : Nat} (h : ¬ sbaAt l fn) :
    (l.filter (fun m => m.fn ≠ fn)).countP (·.owner.isSba) = l.countP (·.owner.isSba) := by
  rw [List.countP_filter]
  refine List.countP_congr fun n hn => ?_
  by_cases hf : n.fn = fn
  · have : n.owner.isSba = false := by
      cases ho : n.owner with
      | sba id => exact absurd ⟨n, hn, hf, id, ho⟩ h
      | _ => rfl
    simp [this]
  · simp [hf]

theorem count_filter_one {l : List Node} (hnd : (l.map (·.fn)).Nodup) {n : Node} (hn : n ∈ l) (ho : n.owner.isSba = true) :
    (l.filter (fun m => m.fn ≠ n.fn)).countP (·.owner.isSba) + 1 = l.countP (·.owner.isSba) := by
  induction l with
  | nil => cases hn
  | cons a l ih =>
    rw [List.map_cons, List.nodup_cons] at hnd
    rcases List.mem_cons.1 hn with rfl | hn
    · rw [List.filter_cons, if_neg (by simp), List.countP_cons, if_pos ho]
      congr 2
      refine List.filter_eq_self.2 fun m hm => ?_
      simp only [decide_eq_true_eq, ne_eq]
      intro e
      exact hnd.1 (e ▸ List.mem_map_of_mem hm)
    · have := ih hnd.2 hn
      have hne : a.fn ≠ n.fn := by
        intro e
        exact hnd.1 (e ▸ List.mem_map_of_mem hn)
      rw [List.filter_cons, if_pos (by simp [hne]), List.countP_cons, List.countP_cons]
      omega

theorem sb_inv {b : Nat} {s : Sb} (h : SbHist Calm b s) :
    Reach b s.l ∧ s.made = s.freed + s.l.countP (·.owner.isSba) := by
  induction h with
  | start b hb => exact ⟨.init b hb, rfl⟩
  | @step b s op _ hnear hcalm ih =>
    obtain ⟨hr, hc⟩ := ih
    cases op with
    | promise fn o =>
      obtain ⟨hx, ox, ho⟩ := hnear
      refine ⟨.reserve fn o hr hx ox, ?_⟩
      show s.made = s.freed + (reserve s.l fn o).2.countP (·.owner.isSba)
      rw [count_reserve hr fn o hx ox]
      have : o.isSba = false := by
        cases o with
        | sba id => exact absurd rfl (ho id)
        | _ => rfl
      rw [this]
      simp [hc]
    | sba lastRts id =>
      obtain ⟨h1, h2, h3⟩ := hnear
      refine ⟨.sba lastRts id hr h1 h2 h3, ?_⟩
      show s.made + 1 = s.freed + (sbaAlloc s.l lastRts id).2.2.countP (·.owner.isSba)
      obtain ⟨g1, g2, -⟩ := C18_sba hr lastRts id h1 h2 h3
      have := count_reserve hr (sbaAlloc s.l lastRts id).1 (.sba id) g2.1 h3
      have e : reserve s.l (sbaAlloc s.l lastRts id).1 (.sba id) = (sbaAlloc s.l lastRts id).2 := rfl
      rw [e, g1, if_pos (show (true && (Owner.sba id).isSba) = true from rfl)] at this
      omega
    | message fn keep =>
      obtain ⟨hx, ox⟩ := hnear
      show Reach b (takeBlock s fn keep).l ∧
        (takeBlock s fn keep).made = (takeBlock s fn keep).freed + (takeBlock s fn keep).l.countP (·.owner.isSba)
      unfold takeBlock
      cases hg : getNode s.l fn with
      | none => exact ⟨hr, hc⟩
      | some n =>
        obtain ⟨hn, hf⟩ := (C18_lookup hr fn hx ox n).1 hg
        obtain ⟨e, -⟩ := C18_release_fn hr fn hx ox
        dsimp only
        have other : ∀ (_ : ∀ id, n.owner ≠ .sba id),
            Reach b (if keep = true then s else { s with l := (releaseFn s.l fn).2 }).l ∧
            (if keep = true then s else { s with l := (releaseFn s.l fn).2 }).made =
              (if keep = true then s else { s with l := (releaseFn s.l fn).2 }).freed +
              (if keep = true then s else { s with l := (releaseFn s.l fn).2 }).l.countP (·.owner.isSba) := by
          intro ho
          cases keep with
          | true => exact ⟨hr, hc⟩
          | false =>
            refine ⟨.releaseFn fn hr hx ox, ?_⟩
            show s.made = s.freed + (releaseFn s.l fn).2.countP (·.owner.isSba)
            rw [e, count_filter_none, hc]
            rintro ⟨m, hm, hmf, id, hid⟩
            have : m = n := (reach_window hr).unique hm hn (by rw [hmf, hf])
            rw [this] at hid
            exact ho id hid
        generalize hoo : n.owner = o at other ⊢
        cases o with
        | sba id =>
          dsimp only
          refine ⟨by rw [hf]; exact .releaseFn fn hr hx ox, ?_⟩
          have := count_filter_one (C18_unique hr) hn (by rw [hoo]; rfl)
          rw [hf, e]
          rw [hf] at this
          omega
        | usf t => exact other (nofun)
        | poll t r => exact other (nofun)
    | notify fn =>
      obtain ⟨hx, ox⟩ := hnear
      refine ⟨.releaseFn fn hr hx ox, ?_⟩
      show s.made = s.freed + (releaseFn s.l fn).2.countP (·.owner.isSba)
      rw [(C18_release_fn hr fn hx ox).1, count_filter_none hcalm, hc]
    | free t =>
      refine ⟨.releaseTbf t hr, ?_⟩
      show s.made = s.freed + (releaseTbf s.l t).countP (·.owner.isSba)
      rw [count_releaseTbf, hc]
    | expire freed fn =>
      obtain ⟨hx, ox⟩ := hnear
      refine ⟨.expire freed fn hr hx ox, ?_⟩
      show s.made = s.freed + (expireFn freed s.l fn).2.countP (·.owner.isSba) +
        (expireFn freed s.l fn).1.countP (·.owner.isSba)
      have := count_expire freed fn s.l.length s.l
      unfold expireFn
      omega
    | disable =>
      refine ⟨.init b (reach_window hr).base, ?_⟩
      show s.made = s.freed + 0
      rw [hc]
      congr 1
      rw [List.countP_eq_zero]
      intro n hn ho
      refine hcalm n.fn ⟨n, hn, rfl, ?_⟩
      cases h : n.owner with
      | sba id => exact ⟨id, rfl⟩
      | _ => rw [h] at ho; cases ho

/-- After any history in which no Packet Cell Change Notification comes in a single block and no PDCH with a
reserved single block is disabled: single blocks allocated = single blocks released + single blocks reserved. -/
theorem C84_sba_partial {b : Nat} {s : Sb} (h : SbHist Calm b s) : s.made = s.freed + sbaCount s.l := by
  rw [sbaCount_eq]
  exact (sb_inv h).2

/-- A single block allocated at frame 0. -/
theorem sbOne {ok : Sb → SbOp → Prop} (h : ok {} (.sba 0 1)) : SbHist ok 0 ⟨[⟨52, .sba 1⟩], 1, 0⟩ :=
  .step (.sba 0 1) (.start 0 (by decide)) ⟨⟨by decide, by decide⟩, by decide, by decide⟩ h

/-- One block is used by a message, a second one expires, a third one is still reserved. -/
example : SbHist Calm (nextFn 56 1) ⟨[⟨60, .sba 3⟩], 3, 2⟩ := by
  have h1 := SbHist.step (.sba 0 2) (sbOne (ok := Calm) trivial) ⟨⟨by decide, by decide⟩, by decide, by decide⟩ trivial
  have h2 := SbHist.step (.sba 0 3) h1 ⟨⟨by decide, by decide⟩, by decide, by decide⟩ trivial
  have h3 := SbHist.step (.message 52 false) h2 ⟨by decide, by decide⟩ trivial
  exact SbHist.step (.expire (fun _ => []) 56) h3 ⟨by decide, by decide⟩ trivial

/-- The counters part for good when a mobile sends a Packet Cell Change Notification in a single block, and
when the PDCH is disabled: the block is neither reserved nor counted as released. -/
theorem C84_fails :
    (∃ b s, SbHist (fun _ op => op ≠ .disable) b s ∧ s.made = 1 ∧ s.freed = 0 ∧ sbaCount s.l = 0) ∧
    (∃ b s, SbHist (fun _ op => ∀ fn, op ≠ .notify fn) b s ∧ s.made = 1 ∧ s.freed = 0 ∧ sbaCount s.l = 0) :=
  ⟨⟨0, _, .step (.notify 52) (sbOne (nofun)) ⟨by decide, by decide⟩ (nofun), rfl, rfl, rfl⟩,
   ⟨0, _, .step .disable (sbOne (nofun)) trivial (nofun), rfl, rfl, rfl⟩⟩

end Verif.Ulc
