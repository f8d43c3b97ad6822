import Verif.Lemmas.UlAckTruth
/-!
C64: the Packet Uplink Ack/Nack tells the mobile what was received.

`message t final rrbp vec` is what the PCU writes into the 23 octets `vec`; `read` (Spec/UlAckMsg, from TS 44.060) is what a mobile
reads. `ReachG` (Spec/UlStream): all histories of an uplink TBF; `s.got` are the blocks that arrived, `s.va`, `s.vs` the mobile's
oldest outstanding block and its next new one.

For GPRS the message never acknowledges a block that did not arrive. For EGPRS this is false: if the bitmap does not fit and has
more than 255 blocks, the message acknowledges blocks that never arrived (`C64_egprs_false_ack`); a cut run has the same effect
(`C64_egprs_false_ack_cut`); and there are bitmaps for which the message is longer than a radio block, so that the mobile cannot
read it (`C64_egprs_unreadable`). The partial theorems exclude these.
-/

namespace Verif.UlAckMsg

open Verif.RlcUl
open Verif.Crbb (Means compress startColor)

/-- What a TBF can have. `code`: CS-1..4 or MCS-1..9. -/
structure Legal (t : Tbf) : Prop where
  tfi : t.tfi < 32
  code : t.code < if t.egprs then 9 else 4
  tlli : t.tlli < 2 ^ 32
  ta : t.ta < 64 ∨ t.ta = 220

/-- What the message says besides the acknowledgement: the poll, and TFI, channel coding, TLLI and timing advance of the TBF, the
latter two if they are known. -/
def about (t : Tbf) (final : Bool) (rrbp : Nat) (d : Desc) : Msg :=
  { poll := if final then some rrbp else none, tfi := t.tfi, coding := t.code
    tlli := if t.tlli = 0xffffffff then none else some t.tlli
    ta := if t.ta < 64 then some t.ta else none, desc := d }

/-! ### GPRS -/

section

variable {α : Type} (f : Nat → α) (s : SysG α) (t : Tbf) (ht : Legal t) (hw : t.win = s.rx.win) (final : Bool) (rrbp : Nat)
  (hr : rrbp < 4) (vec : List Bool) (hv : vec.length = 184)

include ht hw hr hv

theorem gprs_read (h : ReachG f 128 64 Any s) (he : t.egprs = false) :
    read (message t final rrbp vec) = some (about t final rrbp (.gprs ⟨final, s.rx.win.vr, s.rx.win.updateRbb⟩)) := by
  obtain ⟨q, r, hi, _⟩ := reachG_sound (Or.inl ⟨rfl, rfl⟩) h
  have hc := ht.code
  rw [he] at hc
  obtain ⟨rest, e⟩ := message_gprs he final rrbp hv
  rw [e, read_header ht.tfi final hr (by omega)]
  have h1 := read_gprs (t := t) hc ht.tlli ht.ta (by rw [hw, hi.hws]; omega) (by rw [hw, hi.hr]; omega) final rest
  rw [hw, List.take_of_length_le (by simp [Win.updateRbb, hi.hws])] at h1
  simp only [Nat.zero_ne_one, if_false, h1, Option.bind_eq_bind, Option.bind_some, Option.pure_def]
  rfl

omit ht hw hr hv in
theorem gprs_verdict (h : ReachG f 128 64 Any s) {n : Nat}
    (hb : (⟨final, s.rx.win.vr, s.rx.win.updateRbb⟩ : Gprs).verdict n = some true) :
    ∃ p, p < 64 ∧ n % 128 = (s.rx.win.vr + 128 - 1 - (64 - 1 - p)) % 128 ∧ s.rx.win.updateRbb[p]? = some true := by
  obtain ⟨q, r, hi, _⟩ := reachG_sound (Or.inl ⟨rfl, rfl⟩) h
  have hr' : s.rx.win.vr < 128 := by rw [hi.hr]; omega
  unfold Gprs.verdict at hb
  dsimp only at hb
  split at hb
  · rename_i hj
    exact ⟨_, by omega, by omega, hb⟩
  · cases hb

/-- The mobile can read the message, finds in it what the TBF has, and never takes a block for received that was not. All
histories. -/
theorem C64_gprs_never_acks_unreceived (h : ReachG f 128 64 Any s) (he : t.egprs = false) :
    ∃ d : Gprs, read (message t final rrbp vec) = some (about t final rrbp (.gprs d)) ∧ d.final = final ∧
      ∀ n, s.va ≤ n → n < s.vs → d.verdict n = some true → n ∈ s.got := by
  refine ⟨_, gprs_read f s t ht hw final rrbp hr vec hv h he, rfl, fun n h1 h2 hb => ?_⟩
  obtain ⟨p, hp, e, hb⟩ := gprs_verdict f s final h hb
  exact C02_never_acks_unreceived f 128 64 (Or.inl ⟨rfl, rfl⟩) s h n p hp ⟨h1, h2⟩ e hb

/-- The mobile that moves its window over the blocks acknowledged by this message takes one of the steps that C01, C02 and C62
allow: what they assume of acknowledgements is what the message gives. -/
theorem C64_gprs_step (h : ReachG f 128 64 Any s) (he : t.egprs = false) :
    ∃ d : Gprs, read (message t final rrbp vec) = some (about t final rrbp (.gprs d)) ∧
      ∀ a, s.va ≤ a → a ≤ s.vs → (∀ n, s.va ≤ n → n < a → d.verdict n = some true) → StepG f 128 64 Any s { s with va := a } := by
  refine ⟨_, gprs_read f s t ht hw final rrbp hr vec hv h he, fun a h1 h2 hb => StepG.acked s a h1 h2 fun n n1 n2 => .inr ?_⟩
  obtain ⟨p, hp, e, hb⟩ := gprs_verdict f s final h (hb n n1 n2)
  obtain ⟨q, r, hi, _⟩ := reachG_sound (Or.inl ⟨rfl, rfl⟩) h
  refine ⟨64 - 1 - p, by omega, e, ?_⟩
  rw [updateRbb_get _ _ (by rw [hi.hws]; exact hp)] at hb
  simp only [hi.hsns, hi.hws, Win.modSns, Option.some.injEq] at hb
  rw [← e] at hb
  exact hb

/-- Of every block that the mobile has outstanding the message says exactly whether it arrived. Partial: `NoEdge`, see
`C02_edge_block_reported_missing`. -/
theorem C64_gprs_exact_partial (h : ReachG f 128 64 NoEdge s) (he : t.egprs = false) :
    ∃ d : Gprs, read (message t final rrbp vec) = some (about t final rrbp (.gprs d)) ∧ d.final = final ∧
      ∀ n, s.va ≤ n → n < s.vs → (d.verdict n = some true ↔ n ∈ s.got) := by
  have h' : ReachG f 128 64 Any s := by
    clear hw hv hr
    induction h with
    | start => exact .start
    | step _ hs ih =>
      refine .step ih ?_
      cases hs with
      | sendNew x => exact .sendNew _ x
      | acked a x y z => exact .acked _ a x y z
      | radio b x y _ => exact .radio _ b x y trivial
      | segment b x y z v => exact .segment _ b x y z v
  refine ⟨_, gprs_read f s t ht hw final rrbp hr vec hv h' he, rfl, fun n h1 h2 => ⟨fun hb => ?_, fun hg => ?_⟩⟩
  · obtain ⟨p, hp, e, hb⟩ := gprs_verdict f s final h' hb
    exact C02_never_acks_unreceived f 128 64 (Or.inl ⟨rfl, rfl⟩) s h' n p hp ⟨h1, h2⟩ e hb
  · obtain ⟨q, r, hi, hE, hF⟩ := reachG_inv (Or.inl ⟨rfl, rfl⟩) (by intro _ _ _ h; exact h) h
    have hlt := hE.e3 n hg
    have hva : s.va ≤ q := by
      rcases Nat.lt_or_ge q s.va with hh | hh
      · obtain ⟨x, y⟩ := hi.acked q (Nat.le_refl _) hh
        rcases hF with z | z
        · omega
        · exact absurd y z
      · exact hh
    have h3 := hi.rvs; have h4 := hi.vsva
    have hV := C02_bitmap_exact_partial f s h r (fun m hm => hE.e3 m hm) hE.e5
    unfold Gprs.verdict
    dsimp only
    rw [hi.hr]
    have ej : (r % 128 + 128 - n % 128) % 128 = r - n := by omega
    rw [ej, if_pos (by omega), (hV.2.2 (64 - (r - n)) (by omega))]
    exact ⟨by omega, by rw [show r + (64 - (r - n)) - 64 = n by omega]; exact hg⟩

end

/-! ### EGPRS -/

/-- The description `d` tells the mobile nothing but the truth about its outstanding blocks, whatever way the compressed bitmap is
read; and if it claims to reach to the end of the window, all received blocks are acknowledged. -/
structure Truthful {α} (s : SysG α) (d : Egprs) : Prop where
  readable : ∃ l, d.Bitmap l
  acks : ∀ l, d.Bitmap l → ∀ n, s.va ≤ n → n < s.vs → d.verdict l s.va n = some true → n ∈ s.got
  nacks : ∀ l, d.Bitmap l → ∀ n, s.va ≤ n → n < s.vs → d.verdict l s.va n = some false → n ∉ s.got
  whole : d.eow = true → ∀ l, d.Bitmap l → ∀ n, s.va ≤ n → n < s.vs → n ∈ s.got → d.verdict l s.va n = some true

/-- States of the `k` blocks after the first missing one, as they should be. -/
def receivedAfter {α} (s : SysG α) (k : Nat) : List Bool :=
  (List.range k).map fun i => decide (s.rx.out.length + 1 + i ∈ s.got)

/-- Which bitmaps are represented correctly. `k`: number of blocks from the first missing one (exclusive) to the last received.
`space t` is the room for the description, 102 bits, 32 more without TLLI, 8 more without timing advance. Excluded are, when not
all blocks fit uncompressed and compression saves space: bitmaps of 256 bits or more, runs of 64 or more that are cut, and bitmaps
of which the remainder does not fit behind the compressed part. -/
def Represented {α} (t : Tbf) (s : SysG α) (k : Nat) : Prop :=
  k ≤ space t - 24 ∨
  let c := compress (space t - 40) (receivedAfter s k)
  c.gain = false ∨
  (k < 256 ∧ (Crbb.shortRuns (receivedAfter s k) ∨ c.uclen = k) ∧
    (k ≤ c.uclen + (space t - 32) → k + c.crbb.length ≤ c.uclen + (space t - 32)))

section

variable {α : Type} (f : Nat → α) (ws : Nat) (h1 : 64 ≤ ws) (s : SysG α) (t : Tbf) (ht : Legal t) (hw : t.win = s.rx.win)
  (final : Bool) (rrbp : Nat) (hr : rrbp < 4) (vec : List Bool) (hv : vec.length = 184)

theorem space_bounds (t : Tbf) : 102 ≤ space t ∧ space t ≤ 142 := by
  unfold space
  split <;> split <;> omega

include ht hw hr hv in
theorem egprs_read (he : t.egprs = true) {d : Egprs} (hfit : (egprsDesc s.rx.win final (space t)).flatten.length ≤ space t)
    (hd : ∀ r, readEgprsDesc ((egprsDesc s.rx.win final (space t)).flatten ++ r) = some (d, r)) :
    read (message t final rrbp vec) = some (about t final rrbp (.egprs d)) := by
  have hc := ht.code
  rw [he] at hc
  exact egprs_message_read he ht.tfi (by simp at hc; omega) ht.tlli ht.ta final hr hv (by rw [hw]; exact hfit) (by rw [hw]; exact hd)

include h1 ht hw hr hv in
/-- All windows, all histories: as long as the mobile has not sent more than 78 blocks beyond the first missing one (or the bitmap
does not get shorter by compression), the message can be read and never acknowledges a block that was not received. Partial: see
`C64_egprs_false_ack`, `C64_egprs_unreadable`. -/
theorem C64_egprs_never_acks_unreceived_partial (h2 : ws ≤ 1024) (h : ReachG f 2048 ws Any s) (he : t.egprs = true)
    (hs : s.vs ≤ s.rx.out.length + 79 ∨ (compress (space t - 40) s.rx.win.updateEgprsRbb).gain = false) :
    ∃ d : Egprs, read (message t final rrbp vec) = some (about t final rrbp (.egprs d)) ∧ d.final = final ∧ (∃ l, d.Bitmap l) ∧
      ∀ l, d.Bitmap l → ∀ n, s.va ≤ n → n < s.vs → d.verdict l s.va n = some true → n ∈ s.got := by
  obtain ⟨q, r, k⟩ := known h1 h2 h
  have hb := space_bounds t
  rw [k.len] at hs
  obtain ⟨m, d, hT, _, _, hfit, hd⟩ := Tells.plain k final (R := space t) (by omega) (by omega) (by
    rcases hs with x | x
    · left; rw [k.numBlocks]; have := k.inv.rvs; omega
    · right; rw [show space t - 24 - 16 = space t - 40 by omega]; exact x)
  refine ⟨d, egprs_read s t ht hw final rrbp hr vec hv he hfit hd, hT.final, ⟨_, hT.bitmap⟩, fun l hl n n1 n2 hn => ?_⟩
  rw [hT.verdict k hl] at hn
  have hle := hT.le
  rw [k.numBlocks] at hle
  split at hn
  · exact k.sound.s1 n (by assumption)
  · split at hn
    · cases hn
    · split at hn
      · simp only [Option.some.injEq, decide_eq_true_eq] at hn
        exact k.sound.s2 n (by omega) (by omega) hn
      · cases hn

include h1 ht hw hr hv in
/-- The mobile that moves its window over the blocks acknowledged takes a step that C01, C02 and C62 allow. Partial as above. -/
theorem C64_egprs_step_partial (h2 : ws ≤ 1024) (h : ReachG f 2048 ws Any s) (he : t.egprs = true)
    (hs : s.vs ≤ s.rx.out.length + 79 ∨ (compress (space t - 40) s.rx.win.updateEgprsRbb).gain = false) :
    ∃ d : Egprs, read (message t final rrbp vec) = some (about t final rrbp (.egprs d)) ∧
      ∀ l, d.Bitmap l → ∀ a, s.va ≤ a → a ≤ s.vs → (∀ n, s.va ≤ n → n < a → d.verdict l s.va n = some true) →
        StepG f 2048 ws Any s { s with va := a } := by
  obtain ⟨q, r, k⟩ := known h1 h2 h
  have hb := space_bounds t
  rw [k.len] at hs
  obtain ⟨m, d, hT, _, _, hfit, hd⟩ := Tells.plain k final (R := space t) (by omega) (by omega) (by
    rcases hs with x | x
    · left; rw [k.numBlocks]; have := k.inv.rvs; omega
    · right; rw [show space t - 24 - 16 = space t - 40 by omega]; exact x)
  refine ⟨d, egprs_read s t ht hw final rrbp hr vec hv he hfit hd, fun l hl a a1 a2 hn => StepG.acked s a a1 a2 fun n n1 n2 => .inl ?_⟩
  rw [k.len]
  rcases Nat.lt_or_ge n q with x | x
  · exact x
  · have := hn q k.va (by omega)
    rw [hT.verdict k hl, if_neg (Nat.lt_irrefl _), if_pos rfl] at this
    cases this

include h1 in
/-- With the smallest windows, those of up to 79 blocks, nothing is excluded. -/
theorem small_window (h2 : ws ≤ 79) (h : ReachG f 2048 ws Any s) : s.vs ≤ s.rx.out.length + 79 := by
  obtain ⟨q, r, k⟩ := known h1 (by omega) h
  rw [k.len]
  have := k.va; have := k.inv.vsva
  omega

include h1 ht hw hr hv in
/-- Windows up to 512: if the bitmap is one of those represented correctly, then the message can be read and everything it says is
true. `V` is one more than the highest block number received. Partial: windows up to 512, and `Represented`. -/
theorem C64_egprs_exact_partial (h2 : ws ≤ 512) (h : ReachG f 2048 ws Any s) (he : t.egprs = true)
    (V : Nat) (hV : ∀ m ∈ s.got, m < V) (hV' : V = 0 ∨ V - 1 ∈ s.got) (hs : Represented t s (V - 1 - s.rx.out.length)) :
    ∃ d : Egprs, read (message t final rrbp vec) = some (about t final rrbp (.egprs d)) ∧ d.final = final ∧ Truthful s d ∧
      (V ≤ s.rx.out.length + 79 → d.eow = true) := by
  have hcfg : GoodCfg 2048 ws := .inr ⟨rfl, h1, h2⟩
  obtain ⟨q, r, hi, hE, hF⟩ := reachG_inv hcfg (by intro _ _ h; cases h) h
  obtain ⟨q', r', k⟩ := known h1 (by omega) h
  have hq : q = q' := by
    have a := hi.out; have b := k.inv.out
    have := congrArg List.length (a.symm.trans b)
    simpa using this
  subst hq
  have hrr : r = r' := by
    have a := hi.hr; have b := k.inv.hr
    have := hi.qr; have := hi.rq; have := k.inv.qr; have := k.inv.rq
    omega
  subst hrr
  have hrV : r = V := by
    rcases hE.e5 with x | x
    · rcases hV' with y | y
      · omega
      · have := hE.e3 _ y; omega
    · have := hV _ x
      rcases hV' with y | y
      · omega
      · have := hE.e3 _ y; omega
  subst hrV
  have hb := space_bounds t
  have hrq := hi.rq
  have hB : states s.rx.win s.rx.win.vq (r - 1 - q) = receivedAfter s (r - 1 - q) := by
    apply List.ext_getElem?
    intro i
    by_cases hlt : i < r - 1 - q
    · rw [states_get k hlt, receivedAfter, List.getElem?_map, List.getElem?_range hlt, k.len]
      simp only [Option.map_some, Option.some.injEq, decide_eq_decide]
      exact isRecv_iff hcfg hi hE (by omega) (by omega)
    · rw [List.getElem?_eq_none (by rw [length_states]; omega), List.getElem?_eq_none (by simp [receivedAfter]; omega)]
  have hT : ∃ m d, Tells s final m (numBlocks s.rx.win) d ∧ (r ≤ q + 79 → d.eow = true) ∧
      (egprsDesc s.rx.win final (space t)).flatten.length ≤ space t ∧
      ∀ x, readEgprsDesc ((egprsDesc s.rx.win final (space t)).flatten ++ x) = some (d, x) := by
    by_cases hp : numBlocks s.rx.win ≤ space t - 24 ∨ (compress (space t - 24 - 16) s.rx.win.updateEgprsRbb).gain = false
    · obtain ⟨m, d, a, e, _, b, c⟩ := Tells.plain k final (R := space t) (by omega) (by omega) hp
      exact ⟨m, d, a, fun h => by rw [e, k.numBlocks]; exact decide_eq_true (by omega), b, c⟩
    · have hp1 : space t - 24 < numBlocks s.rx.win := by
        rcases Nat.lt_or_ge (space t - 24) (numBlocks s.rx.win) with x | x
        · exact x
        · exact absurd (.inl x) hp
      have hp2 : (compress (space t - 24 - 16) s.rx.win.updateEgprsRbb).gain = true := by
        cases x : (compress (space t - 24 - 16) s.rx.win.updateEgprsRbb).gain
        · exact absurd (.inr x) hp
        · rfl
      have hbm : s.rx.win.updateEgprsRbb = states s.rx.win s.rx.win.vq (r - 1 - q) := by
        rcases k.bitmap with x | x
        · exact x
        · rw [x] at hp2; cases hp2
      have hN := k.numBlocks
      rw [k.len] at hs
      rw [hbm, hB, show space t - 24 - 16 = space t - 40 by omega] at hp2
      rcases hs with x | x | ⟨x1, x2, x3⟩
      · omega
      · rw [x] at hp2; cases hp2
      · have hlen : (receivedAfter s (r - 1 - q)).length = r - 1 - q := by simp [receivedAfter]
        have key : Means (startColor (receivedAfter s (r - 1 - q))) (compress (space t - 40) (receivedAfter s (r - 1 - q))).crbb
            ((receivedAfter s (r - 1 - q)).take (compress (space t - 40) (receivedAfter s (r - 1 - q))).uclen) ∧
            (compress (space t - 40) (receivedAfter s (r - 1 - q))).uclen ≤ r - 1 - q ∧
            (compress (space t - 40) (receivedAfter s (r - 1 - q))).crbb.length ≤ space t - 32 := by
          rcases x2 with y | y
          · obtain ⟨a, b, c⟩ := Crbb.C39_encode_claim_partial (space t - 40) _ (by rw [hlen]; exact x1) y
            exact ⟨a, by rw [hlen] at b; exact b, by omega⟩
          · have a := Crbb.C39_encode_whole_partial (space t - 40) _ (by rw [hlen]; exact x1) (by rw [hlen]; exact y)
            refine ⟨?_, by omega, ?_⟩
            · rw [List.take_of_length_le (by rw [hlen]; omega)]; exact a
            · have := x3 (by omega); omega
        have hT := Tells.crbb k final (R := space t) (by omega) (by omega) hp1 hbm rfl ?_ ?_ ?_ ?_ ?_
        · obtain ⟨m, d, a, b⟩ := hT
          exact ⟨m, d, a, fun h => by omega, b⟩
        all_goals rw [hbm, hB, show space t - 24 - 16 = space t - 40 by omega]
        · exact hp2
        · exact key.2.2
        · rw [hN]; exact key.2.1
        · exact key.1
        · rw [hN]; exact x3
  obtain ⟨m, d, hT, hE1, hfit, hd⟩ := hT
  refine ⟨d, egprs_read s t ht hw final rrbp hr vec hv he hfit hd, hT.final, ⟨⟨_, hT.bitmap⟩, ?_, ?_, ?_⟩, by rw [k.len]; exact hE1⟩
  · intro l hl n n1 n2 hn
    rw [hT.verdict k hl] at hn
    have hle := hT.le
    rw [k.numBlocks] at hle
    split at hn
    · exact k.sound.s1 n (by assumption)
    · split at hn
      · cases hn
      · split at hn
        · simp only [Option.some.injEq, decide_eq_true_eq] at hn
          exact k.sound.s2 n (by omega) (by omega) hn
        · cases hn
  · intro l hl n n1 n2 hn hg
    rw [hT.verdict k hl] at hn
    have hlt := hE.e3 n hg
    split at hn
    · cases hn
    · split at hn
      · rename_i hnq
        subst hnq
        rcases hF with x | x
        · omega
        · exact x ((isRecv_iff hcfg hi hE (Nat.le_refl _) (by omega)).2 hg)
      · split at hn
        · simp only [Option.some.injEq, decide_eq_false_iff_not] at hn
          exact hn ((isRecv_iff hcfg hi hE (by omega) (by omega)).2 hg)
        · cases hn
  · intro heow l hl n n1 n2 hg
    rw [hT.verdict k hl]
    have hlt := hE.e3 n hg
    have hm := hT.eow heow
    rw [k.numBlocks] at hm
    split
    · rfl
    · split
      · rename_i hnq
        subst hnq
        rcases hF with x | x
        · omega
        · exact absurd ((isRecv_iff hcfg hi hE (Nat.le_refl _) (by omega)).2 hg) x
      · rw [if_pos (by omega), decide_eq_true ((isRecv_iff hcfg hi hE (by omega) (by omega)).2 hg)]

include h1 ht hw hr hv in
/-- With windows of up to 79 blocks, the default of 64 among them, nothing is excluded: everything the message says is true, and of
every outstanding block that was received it says so. -/
theorem C64_egprs_exact_small_window (h2 : ws ≤ 79) (h : ReachG f 2048 ws Any s) (he : t.egprs = true) :
    ∃ d : Egprs, read (message t final rrbp vec) = some (about t final rrbp (.egprs d)) ∧ d.final = final ∧ Truthful s d ∧ d.eow = true := by
  obtain ⟨q, r, hi, hE, hF⟩ := reachG_inv (.inr ⟨rfl, h1, by omega⟩ : GoodCfg 2048 ws) (by intro _ _ h; cases h) h
  have hlen : s.rx.out.length = q := by rw [hi.out]; simp
  have hb := space_bounds t
  have hrq := hi.rq
  obtain ⟨d, a, b, c, e⟩ := C64_egprs_exact_partial f ws h1 s t ht hw final rrbp hr vec hv (by omega) h he r (fun m hm => hE.e3 m hm) hE.e5
    (.inl (by rw [hlen]; omega))
  exact ⟨d, a, b, c, e (by omega)⟩

end

/-! ### What is excluded happens -/

/-- Runs of the given lengths, colours alternating. -/
def runs (c : Bool) : List Nat → List Bool
  | [] => []
  | n :: l => List.replicate n c ++ runs (!c) l

/-- Their terminating codes. -/
def codes (c : Bool) : List Nat → List Bool
  | [] => []
  | n :: l => Crbb.word c n ++ codes (!c) l

theorem means_runs : ∀ (l : List Nat) (c : Bool) (code bits : List Bool), (∀ n ∈ l, n < 64) →
    Means (if l.length % 2 = 0 then c else !c) code bits → Means c (codes c l ++ code) (runs c l ++ bits) := by
  intro l
  induction l with
  | nil => intro c code bits _ h; exact h
  | cons n l ih =>
    intro c code bits hl h
    simp only [codes, runs, List.append_assoc]
    refine Means.term c n _ _ (hl n (List.mem_cons_self ..)) (ih _ _ _ (fun m hm => hl m (List.mem_cons_of_mem _ hm)) ?_)
    rw [List.length_cons] at h
    rcases Nat.mod_two_eq_zero_or_one l.length with x | x
    · rw [if_neg (by omega)] at h; rw [if_pos x]; exact h
    · rw [if_pos (by omega)] at h; rw [if_neg (by omega), Bool.not_not]; exact h

theorem legal_example (w : Win) : Legal ⟨true, 3, 8, 0x80000001, 5, w⟩ :=
  ⟨(by decide : 3 < 32), (by decide : 8 < 9), (by decide : 0x80000001 < 2 ^ 32), .inl (by decide : 5 < 64)⟩

set_option maxRecDepth 100000 in
/-- The length of the compressed part is kept in an octet. Window of 512 blocks; 1 .. 300 were received, 0 and the blocks from 301
on were not. The message acknowledges the blocks 301 .. 355 as well. -/
theorem C64_egprs_false_ack : ∃ s : SysG Nat, ReachG id 2048 512 Any s ∧ Legal ⟨true, 3, 8, 0x80000001, 5, s.rx.win⟩ ∧ ∃ d l,
    read (message ⟨true, 3, 8, 0x80000001, 5, s.rx.win⟩ false 0 (List.replicate 184 false)) =
      some (about ⟨true, 3, 8, 0x80000001, 5, s.rx.win⟩ false 0 (.egprs d)) ∧ d.Bitmap l ∧
    ∀ n, 301 ≤ n → n ≤ 355 → s.va ≤ n ∧ n < s.vs ∧ n ∉ s.got ∧ d.verdict l s.va n = some true := by
  have h0 : ReachG id 2048 512 Any _ :=
    reach_sends 400 (ReachG.start (f := id) (sns := 2048) (ws := 512) (G := Any)) (by simp)
  have h1 := reach_deliver ((List.range 300).map (· + 1)) h0 (by intro n hn; simp at hn ⊢; omega)
  have hw : read (message ⟨true, 3, 8, 0x80000001, 5, (deliver id 2048 ((List.range 300).map (· + 1)) (Rx.init Nat 2048 512)).win⟩ false 0
      (List.replicate 184 false)) = some ⟨none, 3, 8, some 0x80000001, some 5, .egprs ⟨false, true, false, 1,
        some (true, Crbb.word true (63 + 4) ++ codes true [44]), List.replicate 55 true⟩⟩ := by decide +kernel
  dsimp only at h1
  generalize deliver id 2048 ((List.range 300).map (· + 1)) (Rx.init Nat 2048 512) = x at hw h1
  refine ⟨_, h1, legal_example _, _, List.replicate (64 * 4) true ++ runs true [44] ++ List.replicate 55 true, hw, ⟨_, ?_, by
    rw [List.reverse_replicate]⟩, fun n n1 n2 => ⟨by simp, by simp; omega, by simp; omega, ?_⟩⟩
  · exact Means.makeUp true 4 _ _ (by omega) (by omega) (by
      have := means_runs [44] true [] [] (by simp) (Means.nil _)
      simpa using this)
  · unfold Egprs.verdict
    simp only [Nat.zero_mod, Nat.reduceAdd, Nat.reduceSub, Nat.reduceMod]
    rw [if_neg (by omega), if_neg (by omega), List.getElem?_append_right (by simp [runs]; omega), List.getElem?_replicate, if_pos (by simp [runs]; omega)]

set_option maxRecDepth 100000 in
/-- A run that is cut behind its make-up code counts as not encoded. Window of 192 blocks; the last blocks received are 91 .. 156 and
162 .. 164. The message acknowledges the blocks 157 .. 161 and 165 as well. -/
theorem C64_egprs_false_ack_cut : ∃ s : SysG Nat, ReachG id 2048 192 Any s ∧ Legal ⟨true, 3, 8, 0x80000001, 5, s.rx.win⟩ ∧ ∃ d l,
    read (message ⟨true, 3, 8, 0x80000001, 5, s.rx.win⟩ false 0 (List.replicate 184 false)) =
      some (about ⟨true, 3, 8, 0x80000001, 5, s.rx.win⟩ false 0 (.egprs d)) ∧ d.Bitmap l ∧
    ∀ n, n ∈ [157, 158, 159, 160, 161, 165] → s.va ≤ n ∧ n < s.vs ∧ n ∉ s.got ∧ d.verdict l s.va n = some true := by
  let ns := (List.range 165).filter fun n => (false :: runs true [10, 2, 10, 2, 10, 2, 10, 2, 10, 2, 10, 2, 5, 13, 66, 5, 3])[n]? = some true
  have h0 : ReachG id 2048 192 Any _ :=
    reach_sends 170 (ReachG.start (f := id) (sns := 2048) (ws := 192) (G := Any)) (by simp)
  have h1 := reach_deliver ns h0 (by intro n hn; have := List.mem_range.1 (List.mem_filter.1 hn).1; simp; omega)
  have hw : read (message ⟨true, 3, 8, 0x80000001, 5, (deliver id 2048 ns (Rx.init Nat 2048 192)).win⟩ false 0
      (List.replicate 184 false)) = some ⟨none, 3, 8, some 0x80000001, some 5, .egprs ⟨false, true, false, 1,
        some (true, codes true [10, 2, 10, 2, 10, 2, 10, 2, 10, 2, 10, 2, 5, 13] ++ Crbb.word true (63 + 1)), List.replicate 11 true⟩⟩ := by
    decide +kernel
  have hg : ∀ n ∈ [157, 158, 159, 160, 161, 165], n ∉ ns := by decide +kernel
  dsimp only at h1
  generalize deliver id 2048 ns (Rx.init Nat 2048 192) = x at hw h1
  refine ⟨_, h1, legal_example _, _,
    runs true [10, 2, 10, 2, 10, 2, 10, 2, 10, 2, 10, 2, 5, 13] ++ List.replicate (64 * 1) true ++ List.replicate 11 true, hw, ⟨_, ?_, by
    rw [List.reverse_replicate]⟩, fun n n1 => ⟨by simp, by simp at n1 ⊢; omega, by simpa using hg n n1, ?_⟩⟩
  · have := Means.makeUp true 1 [] [] (by omega) (by omega) (Means.nil true)
    rw [List.append_nil, List.append_nil] at this
    exact means_runs _ true _ _ (by decide) this
  · dsimp only
    clear hw h1
    revert n
    decide +kernel

set_option maxRecDepth 100000 in
/-- The remainder is written behind the compressed part without regard to the space left. Window of 128 blocks; 1 .. 60 and the even
numbers 62 .. 100 were received. The mobile cannot read the message. -/
theorem C64_egprs_unreadable : ∃ s : SysG Nat, ReachG id 2048 128 Any s ∧ Legal ⟨true, 3, 8, 0x80000001, 5, s.rx.win⟩ ∧
    read (message ⟨true, 3, 8, 0x80000001, 5, s.rx.win⟩ false 0 (List.replicate 184 false)) = none := by
  let ns := (List.range 60).map (· + 1) ++ (List.range 20).map (2 * · + 62)
  have h0 : ReachG id 2048 128 Any _ :=
    reach_sends 110 (ReachG.start (f := id) (sns := 2048) (ws := 128) (G := Any)) (by simp)
  have h1 := reach_deliver ns h0 (by intro n hn; simp [ns] at hn; simp; omega)
  have hw : read (message ⟨true, 3, 8, 0x80000001, 5, (deliver id 2048 ns (Rx.init Nat 2048 128)).win⟩ false 0
      (List.replicate 184 false)) = none := by decide +kernel
  exact ⟨_, h1, legal_example _, hw⟩

/-! ### Non-vacuity -/

set_option maxRecDepth 100000 in
/-- Blocks 1 .. 100 of 110 received, more than fit uncompressed: the hypotheses of `C64_egprs_exact_partial` hold. -/
example : ∃ s : SysG Nat, ReachG id 2048 128 Any s ∧ Legal ⟨true, 3, 8, 0x80000001, 5, s.rx.win⟩ ∧ (∀ m ∈ s.got, m < 101) ∧ 100 ∈ s.got ∧
    Represented ⟨true, 3, 8, 0x80000001, 5, s.rx.win⟩ s (101 - 1 - s.rx.out.length) ∧ s.rx.out.length = 0 := by
  have h0 : ReachG id 2048 128 Any _ :=
    reach_sends 110 (ReachG.start (f := id) (sns := 2048) (ws := 128) (G := Any)) (by simp)
  have h1 := reach_deliver ((List.range 100).map (· + 1)) h0 (by intro n hn; simp  at hn; simp; omega)
  have hl : (deliver id 2048 ((List.range 100).map (· + 1)) (Rx.init Nat 2048 128)).out.length = 0 := by decide +kernel
  dsimp only at h1
  generalize deliver id 2048 ((List.range 100).map (· + 1)) (Rx.init Nat 2048 128) = x at hl h1
  refine ⟨_, h1, legal_example _, by simp ; omega, by simp , ?_, hl⟩
  unfold Represented
  rw [show (101 - 1 - _ : Nat) = 100 from by dsimp only; rw [hl]]
  have hB : receivedAfter (⟨0, 0 + 110, x, [] ++ (List.range 100).map (· + 1)⟩ : SysG Nat) 100 = List.replicate 100 true := by
    unfold receivedAfter
    rw [List.eq_replicate_iff]
    refine ⟨by simp, fun b hb => ?_⟩
    obtain ⟨i, hi, rfl⟩ := List.mem_map.1 hb
    dsimp only
    rw [hl]
    have := List.mem_range.1 hi
    simp only [List.nil_append, List.mem_map, List.mem_range, decide_eq_true_eq]
    exact ⟨i, this, by omega⟩
  rw [hB, show space ⟨true, 3, 8, 0x80000001, 5, x.win⟩ = 102 from rfl]
  exact .inr (.inr ⟨by decide, .inr (by decide +kernel), by decide +kernel⟩)

end Verif.UlAckMsg
