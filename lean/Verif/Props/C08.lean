import Verif.Lemmas.SegLink
/-!
C08: LLC frames survive EGPRS segmentation and reassembly.

`Link.Reach true (fun _ _ _ => True) s` (Spec/SegStream.lean): `s` is reachable by any
interleaving of frames (of at least 5 octets) being handed over and RLC blocks of any
sizes between 20 and 74 octets being made and received, the TBF being declared final at
any moment.
-/
namespace Verif.Seg

/-- The unrestricted EGPRS link. -/
abbrev anyBlock : Nat → (Nat → Bool) → Llc → Prop := fun _ _ _ => True

/-- At any time the receiver has put together exactly a prefix of the frames handed over,
byte for byte and in order; the only other frames it sees are LLC dummy commands. -/
theorem C08_frames_survive (s : Link) (h : Link.Reach true anyBlock s) : Delivered s :=
  delivered_of_inv (link_inv (by simp) h)

/-- Making a block always succeeds and the block has exactly the announced size: nothing is
ever written past its end. -/
theorem C08_block_has_its_size (s : Link) (h : Link.Reach true anyBlock s) (n : Nat)
    (hn : LegalLen true n) (fin : Nat → Bool) :
    ∃ b tx', createBlock true n fin s.tx = some (b, tx') ∧ b.data.length = n := by
  have hi := link_inv (by simp) h
  obtain ⟨b, s', h1, h2, _⟩ := createBlock_ok true n hn fin s.rx s.tx hi.good hi.rx (by simp)
  exact ⟨b, s', h1, h2⟩

/-- When the block marked as the last one of the TBF has been received, everything handed
over has been delivered and the reassembly buffer is empty. -/
theorem C08_last_block_completes (s : Link) (h : Link.Reach true anyBlock s)
    (hs : s.finished = false) (n : Nat) (hn : LegalLen true n) (fin : Nat → Bool)
    (junk : Nat → Nat) (b : Block) (tx' : Llc)
    (hb : createBlock true n fin s.tx = some (b, tx')) (hlast : b.cv = 0) :
    AllDelivered ⟨s.given, tx', s.rx.block true (memOf b.data junk) n b.hdr, true⟩ := by
  have hi := link_inv (by simp) h
  obtain ⟨b', s', h1, _, _, _, _, h6, _⟩ := createBlock_ok true n hn fin s.rx s.tx hi.good hi.rx (by simp)
  rw [hb] at h1
  simp only [Option.some.injEq, Prod.mk.injEq] at h1
  obtain ⟨rfl, rfl⟩ := h1
  have hi2 := link_inv (by simp) (h.step (.block s n fin junk _ _ hs hn trivial hb))
  have hc := h6 hlast
  rw [show decide (b.cv = 0) = true from by simp [hlast]] at hi2
  exact allDelivered_of_inv hi2 hc.1 hc.2

/-- Progress: as long as the TBF is kept open, a number of blocks bounded by the number of
octets and frames pending, whatever their sizes, delivers everything handed over. -/
theorem C08_all_delivered (s : Link) (h : Link.Reach true anyBlock s) (sizes : List Nat)
    (hl : ∀ n ∈ sizes, LegalLen true n)
    (henough : (s.tx.pending.map (· + 1)).sum ≤ sizes.length) :
    ∃ k t, sendBlocks true (sizes.take k) s = some t ∧ t.given = s.given ∧ AllDelivered t :=
  blocks_deliver sizes s (link_inv (by simp) h) hl henough

/-! Non-vacuity: two frames, the second ending exactly at the end of the first block, so
that the second block starts with LI=0. -/

/-- Sender with the frames `1 … 10` and 15 times `9` queued: 10 + 1 length octet + 15 of 26. -/
def demoFrames : List (List Nat) := [[1,2,3,4,5,6,7,8,9,10], List.replicate 15 9]

example : ∃ b tx', createBlock true 26 (fun _ => false) ⟨[], 0, demoFrames, []⟩ = some (b, tx') ∧
    b.data = [21,1,2,3,4,5,6,7,8,9,10,9,9,9,9,9,9,9,9,9,9,9,9,9,9,9] ∧ b.e = 0 ∧
    tx'.cur.length = 15 ∧ tx'.idx = 15 := by
  refine ⟨_, _, rfl, ?_, ?_, ?_, ?_⟩ <;> decide +kernel

example : ∃ t, sendBlocks true [26, 22] ⟨demoFrames, ⟨[], 0, demoFrames, []⟩, ⟨[], []⟩, false⟩ = some t ∧
    t.rx.out = demoFrames ∧ t.rx.acc = [] := by
  refine ⟨_, rfl, ?_, ?_⟩ <;> decide +kernel

theorem demo_reach : Link.Reach true anyBlock ⟨demoFrames, ⟨[], 0, demoFrames, []⟩, ⟨[], []⟩, false⟩ :=
  (Link.Reach.start.step (.enqueue _ [1,2,3,4,5,6,7,8,9,10] (by decide))).step
    (.enqueue _ (List.replicate 15 9) (by decide))

/-- The bound of 5 octets per frame in `Link.Step` is needed: the receiver has room for 16
pieces per block (tbf_ul.cpp:168) and drops a whole block that holds more. -/
theorem C08_tiny_frames_dropped :
    ∃ b tx', createBlock true 74 (fun _ => false) ⟨[], 0, List.replicate 20 [7], []⟩ = some (b, tx') ∧
      tx'.queue = [] ∧ tx'.cur = [] ∧
      ((⟨[], []⟩ : Asm).block true (memOf b.data (fun _ => 0)) 74 b.hdr).out = [] := by
  refine ⟨_, _, rfl, ?_, ?_, ?_⟩ <;> decide +kernel

end Verif.Seg
