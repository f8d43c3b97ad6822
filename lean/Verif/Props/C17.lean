import Verif.Props.C07
import Verif.Props.C08
/-!
C17: the LLC reassembly buffer is never overrun.

The full statement is false of the code (`C17_violated`): `llc_append_frame`
(llc.c:78-83, "TODO: bounds check") copies without looking at the size of the buffer
(`LLC_MAX_LEN` = 1543, llc.h:33).  What holds is that a peer which sends frames of at most
1543 octets, cut up the way the specification (and this PCU's own sender) does, never makes
it overflow.
-/
namespace Verif.Seg

/-- `LLC_MAX_LEN`, llc.h. -/
def llcMaxLen : Nat := 1543

/-- An uplink block as it comes from the air: contents, length and header fields. -/
structure UlBlock where
  mem : Nat → Nat
  len : Nat
  hdr : Hdr

/-- Reassembly after a history of blocks. -/
def Asm.blocks (edge : Bool) (a : Asm) (bs : List UlBlock) : Asm :=
  bs.foldl (fun a b => a.block edge b.mem b.len b.hdr) a

/-- The code violates the property, by any margin: for every size there is a history of
ordinary 74-octet blocks (none of which ends its frame) after which more than that has been
written to the fixed buffer. -/
theorem C17_violated (edge : Bool) (N : Nat) :
    ∃ bs : List UlBlock, (∀ b ∈ bs, b.len = 74) ∧ bs.length = N / 74 + 1 ∧
      N < ((⟨[], []⟩ : Asm).blocks edge bs).acc.length := by
  let b : UlBlock := ⟨memOf (List.replicate 74 7) (fun _ => 0), 74, ⟨1, 15, false, false⟩⟩
  have hstep : ∀ a : Asm, (a.block edge b.mem b.len b.hdr).acc.length = a.acc.length + 74 := by
    intro a
    have : ∀ e : Bool, (fromUl e b.mem b.len b.hdr (some 16)).pieces = some [⟨0, 74, false⟩] := by
      decide +kernel
    unfold Asm.block
    rw [this]
    simp [Asm.piece, Piece.bytes]
  have key : ∀ k (a : Asm), (a.blocks edge (List.replicate k b)).acc.length = a.acc.length + 74 * k := by
    intro k
    induction k with
    | zero => intro a; simp [Asm.blocks]
    | succ k ih =>
      intro a
      show ((a.block edge b.mem b.len b.hdr).blocks edge (List.replicate k b)).acc.length = _
      rw [ih, hstep]; omega
  refine ⟨List.replicate (N / 74 + 1) b, ?_, by simp, ?_⟩
  · intro x hx
    rw [(List.mem_replicate.1 hx).2]
  · rw [key]; simp; omega

/-- In particular the 1543-octet buffer overflows after 21 blocks. -/
theorem C17_overflow_after_21_blocks (edge : Bool) : ∃ bs : List UlBlock, bs.length = 21 ∧
    (∀ b ∈ bs, b.len = 74) ∧ llcMaxLen < ((⟨[], []⟩ : Asm).blocks edge bs).acc.length := by
  obtain ⟨bs, h1, h2, h3⟩ := C17_violated edge llcMaxLen
  exact ⟨bs, h2, h1, h3⟩

theorem frame_bound {edge : Bool} {s : Link} (h : LinkInv edge s) (M : Nat) (hM : 79 ≤ M)
    (hg : ∀ f ∈ s.given, f.length ≤ M) : ∀ x ∈ s.tx.loaded, x.2.length ≤ M := by
  intro x hx
  by_cases h1 : x.1 = true
  · obtain ⟨k, hk⟩ := h.good.dum x hx h1
    rw [hk]
    simp only [dummyFrame, List.length_append, List.length_cons, List.length_nil,
      List.length_replicate]
    omega
  · apply hg
    rw [← h.user]
    apply List.mem_append_left
    unfold Llc.userLoaded
    refine List.mem_map.2 ⟨x, List.mem_filter.2 ⟨hx, ?_⟩, rfl⟩
    simpa using h1

theorem rx_bound {edge : Bool} {s : Link} (h : LinkInv edge s) (M : Nat) (hM : 79 ≤ M)
    (hg : ∀ f ∈ s.given, f.length ≤ M) :
    s.rx.acc.length ≤ M ∧ ∀ f ∈ s.rx.out, f.length ≤ M := by
  have hb := frame_bound h M hM hg
  rw [h.rx]
  constructor
  · dsimp only
    by_cases hc : s.tx.cur = []
    · rw [hc]; simp
    · obtain ⟨l, b, hl⟩ := h.good.top hc
      have := hb (b, s.tx.cur) (by rw [hl]; simp)
      rw [List.length_take]
      dsimp only at this
      omega
  · intro f hf
    dsimp only [Llc.completed] at hf
    obtain ⟨x, hx, rfl⟩ := List.mem_map.1 hf
    apply hb
    split at hx
    · exact hx
    · exact List.dropLast_subset _ hx

/-- With a peer that sends only frames of at most 1543 octets and segments them correctly,
the buffer never holds more than 1543 octets: neither between blocks (`acc`) nor at the
moment a frame is complete (every frame in `out` was in the buffer just before).
Missing from the full property: peers that misbehave, see `C17_violated`. -/
theorem C17_wellformed_peer_partial (s : Link) (h : Link.Reach true anyBlock s)
    (hg : ∀ f ∈ s.given, f.length ≤ llcMaxLen) :
    s.rx.acc.length ≤ llcMaxLen ∧ ∀ f ∈ s.rx.out, f.length ≤ llcMaxLen :=
  rx_bound (link_inv (by simp) h) llcMaxLen (by decide) hg

/-- The same for GPRS. -/
theorem C17_wellformed_peer_gprs_partial (s : Link) (h : Link.Reach false noExactFinal s)
    (hg : ∀ f ∈ s.given, f.length ≤ llcMaxLen) :
    s.rx.acc.length ≤ llcMaxLen ∧ ∀ f ∈ s.rx.out, f.length ≤ llcMaxLen :=
  rx_bound (link_inv (fun _ _ _ h _ => h) h) llcMaxLen (by decide) hg

/-! Non-vacuity: a reachable link whose frames meet the bound. -/
example : ∃ s, Link.Reach true anyBlock s ∧ s.given.length = 2 ∧
    ∀ f ∈ s.given, f.length ≤ llcMaxLen :=
  ⟨_, demo_reach, rfl, by decide⟩

end Verif.Seg
