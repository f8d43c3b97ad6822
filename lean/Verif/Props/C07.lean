import Verif.Lemmas.SegLink
/-!
C07: LLC frames survive GPRS segmentation and reassembly.

The full statement is false of the code: see `C07_violated`.  When the last frame of the
TBF exactly fills the rest of a block in which another frame ended before, the length
octet of that other frame keeps M=0 (encoding.cpp:1428-1445 sets only its E bit), which
tells the receiver that no further data follows in the block.  The partial theorems
exclude exactly this situation (`exactFit`, Spec/SegStream.lean).
-/
namespace Verif.Seg

/-- Blocks may be made unless the TBF may be declared final while its last frame exactly
fills the rest of a block already holding the end of another frame. -/
def noExactFinal (n : Nat) (fin : Nat → Bool) (s : Llc) : Prop :=
  (∃ k, fin k = true) → exactFit n 0 s.pending = false

/-- At any time the receiver has put together exactly a prefix of the frames handed over,
byte for byte and in order; the only other frames it sees are LLC dummy commands.
Missing from the full property: the excluded situation, in which it is false. -/
theorem C07_frames_survive_partial (s : Link) (h : Link.Reach false noExactFinal s) :
    Delivered s :=
  delivered_of_inv (link_inv (fun _ _ _ h _ => h) h)

/-- In particular the property holds without exception while the TBF is kept open. -/
theorem C07_frames_survive_open (s : Link)
    (h : Link.Reach false (fun _ fin _ => ∀ k, fin k = false) s) : Delivered s :=
  delivered_of_inv (link_inv (fun _ _ _ h _ ⟨k, hk⟩ => by rw [h k] at hk; simp at hk) h)

/-- Making a block always succeeds and the block has exactly the announced size. -/
theorem C07_block_has_its_size_partial (s : Link) (h : Link.Reach false noExactFinal s) (n : Nat)
    (hn : LegalLen false n) (fin : Nat → Bool) (hf : noExactFinal n fin s.tx) :
    ∃ b tx', createBlock false n fin s.tx = some (b, tx') ∧ b.data.length = n := by
  have hi := link_inv (fun _ _ _ h _ => h) h
  obtain ⟨b, s', h1, h2, _⟩ := createBlock_ok false n hn fin s.rx s.tx hi.good hi.rx (fun _ => hf)
  exact ⟨b, s', h1, h2⟩

/-- When the block marked as the last one of the TBF has been received, everything handed
over has been delivered and the reassembly buffer is empty. -/
theorem C07_last_block_completes_partial (s : Link) (h : Link.Reach false noExactFinal s)
    (hs : s.finished = false) (n : Nat) (hn : LegalLen false n) (fin : Nat → Bool)
    (hf : noExactFinal n fin s.tx)
    (junk : Nat → Nat) (b : Block) (tx' : Llc)
    (hb : createBlock false n fin s.tx = some (b, tx')) (hlast : b.cv = 0) :
    AllDelivered ⟨s.given, tx', s.rx.block false (memOf b.data junk) n b.hdr, true⟩ := by
  have hi := link_inv (fun _ _ _ h _ => h) h
  obtain ⟨b', s', h1, _, _, _, _, h6, _⟩ := createBlock_ok false n hn fin s.rx s.tx hi.good hi.rx
    (fun _ => hf)
  rw [hb] at h1
  simp only [Option.some.injEq, Prod.mk.injEq] at h1
  obtain ⟨rfl, rfl⟩ := h1
  have hi2 := link_inv (fun _ _ _ h _ => h) (h.step (.block s n fin junk _ _ hs hn hf hb))
  have hc := h6 hlast
  rw [show decide (b.cv = 0) = true from by simp [hlast]] at hi2
  exact allDelivered_of_inv hi2 hc.1 hc.2

/-- Progress: as long as the TBF is kept open, a number of blocks bounded by the number of
octets and frames pending, whatever their sizes, delivers everything handed over. -/
theorem C07_all_delivered (s : Link) (h : Link.Reach false noExactFinal s) (sizes : List Nat)
    (hl : ∀ n ∈ sizes, LegalLen false n)
    (henough : (s.tx.pending.map (· + 1)).sum ≤ sizes.length) :
    ∃ k t, sendBlocks false (sizes.take k) s = some t ∧ t.given = s.given ∧ AllDelivered t :=
  blocks_deliver sizes s (link_inv (fun _ _ _ h _ => h) h) hl henough

/-! ## The exception -/

/-- A frame of 6 octets and one of 13: with the length octet of the first they fill a CS-1
block of 20 octets exactly. -/
def lostFrames : List (List Nat) := [List.replicate 6 1, List.replicate 13 2]

theorem lost_reach : Link.Reach false (fun _ _ _ => True)
    ⟨lostFrames, ⟨[], 0, lostFrames, []⟩, ⟨[], []⟩, false⟩ :=
  (Link.Reach.start.step (.enqueue _ (List.replicate 6 1) (by decide))).step
    (.enqueue _ (List.replicate 13 2) (by decide))

/-- The code violates the property: the sender has sent everything and finished the TBF,
all blocks arrived, but the last frame was not delivered and never will be. -/
theorem C07_violated : ∃ s, Link.Reach false (fun _ _ _ => True) s ∧ s.finished = true ∧
    s.tx.cur = [] ∧ s.tx.queue = [] ∧ s.given = lostFrames ∧
    s.rx.out = [List.replicate 6 1] := by
  have hb : ∃ b tx', createBlock false 20 (fun _ => true) ⟨[], 0, lostFrames, []⟩ = some (b, tx') ∧
      b = ⟨[25,1,1,1,1,1,1,2,2,2,2,2,2,2,2,2,2,2,2,2], 0, 0⟩ ∧
      tx'.cur = [] ∧ tx'.queue = [] := by
    refine ⟨_, _, rfl, ?_, ?_, ?_⟩ <;> decide +kernel
  obtain ⟨b, tx', h1, h2, h3, h4⟩ := hb
  refine ⟨_, lost_reach.step (.block _ 20 (fun _ => true) (fun _ => 0) b tx' rfl (by simp [LegalLen]) trivial h1),
    by simp [h2], h3, h4, rfl, ?_⟩
  rw [h2]
  dsimp only
  decide +kernel

/-- And so the unrestricted claim is false. -/
theorem C07_not_all_delivered : ¬ ∀ s, Link.Reach false (fun _ _ _ => True) s →
    s.finished = true → s.tx.cur = [] → s.tx.queue = [] → AllDelivered s := by
  intro hall
  obtain ⟨s, h1, h2, h3, h4, h5, h6⟩ := C07_violated
  obtain ⟨L, hL, _, hL2, _⟩ := hall s h1 h2 h3 h4
  have e1 : (L.map (·.2)).length = 1 := by rw [← hL, h6]; rfl
  have e2 : ((L.filter (fun x => !x.1)).map (·.2)).length = 2 := by rw [hL2, h5]; rfl
  have e3 := List.length_filter_le (fun x : Bool × List Nat => !x.1) L
  simp only [List.length_map] at e1 e2
  omega

/-! Non-vacuity of the partial theorems: the same two frames in a block of 22 octets. -/
example : noExactFinal 22 (fun _ => true) ⟨[], 0, lostFrames, []⟩ := fun _ => by decide +kernel
example : exactFit 20 0 [6, 13] = true := by decide
example : ∃ b tx', createBlock false 22 (fun _ => true) ⟨[], 0, lostFrames, []⟩ = some (b, tx') ∧
    b = ⟨[26,53,1,1,1,1,1,1,2,2,2,2,2,2,2,2,2,2,2,2,2,0x2b], 0, 0⟩ ∧
    ((⟨[], []⟩ : Asm).block false (memOf b.data (fun _ => 0)) 22 b.hdr).out = lostFrames := by
  refine ⟨_, _, rfl, ?_, ?_⟩ <;> decide +kernel

end Verif.Seg
