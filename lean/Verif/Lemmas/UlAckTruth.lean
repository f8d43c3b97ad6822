import Verif.Lemmas.UlAckMsg
import Verif.Lemmas.UlComplete
import Verif.Props.C02
import Verif.Props.C39
/-!
Towards C64: what an EGPRS Ack/Nack description says of the window it was made from.
-/

namespace Verif.UlAckMsg

open Verif.RlcUl
open Verif.Crbb (Means compress startColor)
open Verif.Bits

/-! ### V(Q) is as far as it can be, in all legal configurations -/

def Stop {α} (s : Rx α) : Prop := s.win.vq = s.win.vr ∨ isRecv s.win.vn s.win.vq = false

theorem flush_stop {α} {f : Nat → α} {sns ws va vs : Nat} {s : Rx α} {q r : Nat} (hc : LegalCfg sns ws)
    (h : Inv f sns ws va vs s q r) : Stop s.flush := by
  obtain ⟨q', h1, _, h3, _, h5⟩ := flush_inv hc h
  unfold Stop
  rw [h1.hq, h1.hr, h5]
  rcases h3 with x | x
  · rw [x]; exact .inl rfl
  · right
    simp only [isRecv, beq_eq_false_iff_ne, ne_eq]
    exact x

theorem rcvBlocks_stop {α} {f : Nat → α} {sns ws va vs : Nat} (hc : LegalCfg sns ws) (blocks : List (Arrival α)) :
    ∀ (s : Rx α) (q r : Nat), Inv f sns ws va vs s q r →
    (∀ b ∈ blocks, ∃ n, va ≤ n ∧ n < vs ∧ b.bsn = n % sns ∧ (b.kind = .ok → b.data = f n)) →
    (∀ b ∈ blocks, b.kind ≠ .partialSeg) → Stop (s.rcvBlocks blocks) := by
  induction blocks with
  | nil => intro s q r h _ _; exact flush_stop hc h
  | cons a rest ih =>
    intro s q r h hb hp
    obtain ⟨r', _, h'⟩ := oneBlock_inv hc h a (hb a (List.mem_cons_self ..))
    have hn := oneBlock_noReturn s a (hp a (List.mem_cons_self ..))
    rcases hres : s.oneBlock a with ⟨s', b⟩
    rw [hres] at h' hn
    dsimp only at hn
    subst hn
    simp only [Rx.rcvBlocks, hres]
    exact ih s' q r' h' (fun b hb' => hb b (List.mem_cons_of_mem _ hb')) (fun b hb' => hp b (List.mem_cons_of_mem _ hb'))

theorem reachG_stop {α} {f : Nat → α} {sns ws : Nat} (hc : LegalCfg sns ws) {s : SysG α} {G} (h : ReachG f sns ws G s) : Stop s.rx := by
  induction h with
  | start => exact .inl rfl
  | @step s t hs hst ih =>
    obtain ⟨q, r, hi, _⟩ := reachG_sound hc hs
    cases hst with
    | sendNew _ => exact ih
    | acked _ _ _ _ => exact ih
    | radio blocks hb hp _ =>
      refine rcvBlocks_stop hc (blocks.map (·.2)) s.rx q r hi ?_ ?_
      · intro b hb'
        obtain ⟨x, hx, rfl⟩ := List.mem_map.1 hb'
        exact ⟨x.1, hb x hx⟩
      · intro b hb'
        obtain ⟨x, hx, rfl⟩ := List.mem_map.1 hb'
        exact hp x hx
    | segment b b1 b2 b3 b4 =>
      by_cases hin : s.rx.win.isInWindow b.2.bsn ∧ isRecv s.rx.win.vn b.2.bsn = false
      · obtain ⟨hin, hnr⟩ := hin
        have e : s.rx.oneBlock b.2 = ({ s.rx with buf := store s.rx.buf b.2.bsn b.2.data }, true) := by
          simp [Rx.oneBlock, hin, hnr, b4]
        show Stop (s.rx.rcvBlocks [b.2])
        simp only [Rx.rcvBlocks, e]
        exact ih
      · have e : s.rx.oneBlock b.2 = (s.rx, false) := by
          unfold Rx.oneBlock
          by_cases h1 : s.rx.win.isInWindow b.2.bsn
          · have : isRecv s.rx.win.vn b.2.bsn = true := by
              cases h2 : isRecv s.rx.win.vn b.2.bsn
              · exact absurd ⟨h1, h2⟩ hin
              · rfl
            simp [h1, this]
          · simp [h1]
        show Stop (s.rx.rcvBlocks [b.2])
        simp only [Rx.rcvBlocks, e]
        exact flush_stop hc hi

/-! ### The window in absolute numbers -/

/-- What is known of a reachable EGPRS window: `q` blocks forwarded, none received from `r` on. -/
structure Known {α} (f : Nat → α) (ws : Nat) (s : SysG α) (q r : Nat) : Prop where
  inv : Inv f 2048 ws s.va s.vs s.rx q r
  sound : Sound 2048 s.rx.win.vn (· ∈ s.got) q r
  stop : q = r ∨ s.rx.win.vn (idx 2048 q) ≠ .received
  va : s.va ≤ q
  ws1 : 64 ≤ ws
  ws2 : ws ≤ 1024

theorem known {α} {f : Nat → α} {ws : Nat} (h1 : 64 ≤ ws) (h2 : ws ≤ 1024) {s : SysG α} {G} (h : ReachG f 2048 ws G s) :
    ∃ q r, Known f ws s q r := by
  have hc : LegalCfg 2048 ws := .inr ⟨rfl, h1, h2⟩
  obtain ⟨q, r, hi, hS⟩ := reachG_sound hc h
  have hF : q = r ∨ s.rx.win.vn (idx 2048 q) ≠ .received := by
    rcases reachG_stop hc h with x | x
    · left
      rw [hi.hq, hi.hr] at x
      have := hi.qr; have := hi.rq
      omega
    · right
      rw [hi.hq] at x
      simp only [isRecv, beq_eq_false_iff_ne, ne_eq] at x
      exact x
  refine ⟨q, r, hi, hS, hF, ?_, h1, h2⟩
  rcases Nat.lt_or_ge q s.va with hh | hh
  · obtain ⟨x, y⟩ := hi.acked q (Nat.le_refl _) hh
    rcases hF with z | z
    · omega
    · exact absurd y z
  · exact hh

theorem Known.len {α} {f : Nat → α} {ws : Nat} {s : SysG α} {q r : Nat} (k : Known f ws s q r) : s.rx.out.length = q := by
  rw [k.inv.out]; simp

theorem Known.numBlocks {α} {f : Nat → α} {ws : Nat} {s : SysG α} {q r : Nat} (k : Known f ws s q r) :
    numBlocks s.rx.win = r - 1 - q := by
  have h1 := k.inv.qr; have h2 := k.inv.rq; have := k.ws2
  unfold UlAckMsg.numBlocks Win.modSns
  rw [k.inv.hsns, k.inv.hq, k.inv.hr, k.inv.hws]
  have e : (r % 2048 + 2048 - q % 2048) % 2048 = r - q := by omega
  simp only [e]
  split <;> omega

/-- States of the blocks after the first missing one. -/
theorem states_get {α} {f : Nat → α} {ws : Nat} {s : SysG α} {q r : Nat} (k : Known f ws s q r) {m i : Nat} (hi : i < m) :
    (states s.rx.win s.rx.win.vq m)[i]? = some (decide (s.rx.win.vn (idx 2048 (q + 1 + i)) = .received)) := by
  unfold states
  rw [List.getElem?_map, List.getElem?_range hi, k.inv.hq]
  simp only [Option.map_some, Option.some.injEq, isRecv]
  rw [show (q % 2048 + 1 + i) % ring = idx 2048 (q + 1 + i) by unfold idx ring; omega]
  cases s.rx.win.vn (idx 2048 (q + 1 + i)) <;> rfl

theorem states_mod (w : Win) (h : w.sns = 2048) (b m : Nat) : states w (w.modSns b) m = states w b m := by
  unfold states
  apply List.map_congr_left
  intro i _
  unfold isRecv Win.modSns
  rw [h, show (b % 2048 + 1 + i) % ring = (b + 1 + i) % ring by unfold ring; omega]

theorem states_append (w : Win) (b m n : Nat) : states w b (m + n) = states w b m ++ states w (b + m) n := by
  unfold states
  rw [List.range_add, List.map_append, List.map_map]
  congr 1
  apply List.map_congr_left
  intro i _
  simp only [Function.comp_def]
  rw [show b + 1 + (m + i) = b + m + 1 + i by omega]

theorem states_take (w : Win) (b m n : Nat) (h : m ≤ n) : (states w b n).take m = states w b m := by
  rw [show n = m + (n - m) by omega, states_append, List.take_left' (by simp [states])]

theorem length_states (w : Win) (b m : Nat) : (states w b m).length = m := by simp [states]

/-- The bitmap given to the compression is what it should be, or empty. -/
theorem Known.bitmap {α} {f : Nat → α} {ws : Nat} {s : SysG α} {q r : Nat} (k : Known f ws s q r) :
    s.rx.win.updateEgprsRbb = states s.rx.win s.rx.win.vq (r - 1 - q) ∨ s.rx.win.updateEgprsRbb = [] := by
  have h1 := k.inv.qr; have h2 := k.inv.rq; have := k.ws2
  have hr : s.rx.win.vr < 2048 := by rw [k.inv.hr]; omega
  unfold Win.updateEgprsRbb
  by_cases hw : s.rx.win.vq + 1 < s.rx.win.vr
  · left
    rw [k.inv.hq, k.inv.hr] at hw
    rw [egprsRbbLoop_spec s.rx.win k.inv.hsns hr (r - 1 - q) s.rx.win.ws (s.rx.win.vq + 1)
      (by rw [k.inv.hq, k.inv.hr]; omega) (by rw [k.inv.hws]; omega)]
    rfl
  · right
    cases s.rx.win.ws with
    | zero => rfl
    | succ n => simp only [egprsRbbLoop]; rw [if_neg hw]

/-! ### Truth of a description -/

/-- A description whose bitmap are the states of `m` blocks. -/
structure Tells {α} (s : SysG α) (final : Bool) (m n : Nat) (d : Egprs) : Prop where
  final : d.final = final
  bow : d.bow = true
  ssn : d.ssn = s.rx.win.modSns (s.rx.win.vq + 1)
  bitmap : d.Bitmap (states s.rx.win s.rx.win.vq m)
  le : m ≤ n
  eow : d.eow = true → m = n

theorem Bitmap_unique {d : Egprs} {l l' : List Bool} (h : d.Bitmap l) (h' : d.Bitmap l') : l = l' := by
  obtain ⟨c, hc, rfl⟩ := h
  obtain ⟨c', hc', rfl⟩ := h'
  cases e : d.crbb with
  | none =>
    simp only [e] at hc hc'
    rw [hc, hc']
  | some x =>
    simp only [e] at hc hc'
    rw [Crbb.C39_unambiguous _ _ _ _ hc hc']

theorem Tells.verdict {α} {f : Nat → α} {ws : Nat} {s : SysG α} {q r : Nat} (k : Known f ws s q r) {final : Bool} {m N : Nat} {d : Egprs}
    (h : Tells s final m N d) {l : List Bool} (hl : d.Bitmap l) (n : Nat) :
    d.verdict l s.va n = if n < q then some true else if n = q then some false else
      if n - q - 1 < m then some (decide (s.rx.win.vn (idx 2048 n) = .received)) else none := by
  have e := Bitmap_unique hl h.bitmap
  subst e
  have h1 := k.va; have := k.inv.qr; have := k.inv.rvs; have := k.inv.vsva; have := k.ws2
  unfold Egprs.verdict
  have e : s.va + (d.ssn + 2047 - s.va % 2048) % 2048 = q := by
    rw [h.ssn, Win.modSns, k.inv.hsns, k.inv.hq]; omega
  simp only [e, h.bow, if_true]
  by_cases h2 : n < q
  · simp only [if_pos h2]
  · simp only [if_neg h2]
    by_cases h3 : n = q
    · simp only [if_pos h3]
    · simp only [if_neg h3]
      by_cases h4 : n - q - 1 < m
      · rw [if_pos h4, states_get k h4, show q + 1 + (n - q - 1) = n by omega]
      · rw [if_neg h4, List.getElem?_eq_none (by rw [length_states]; omega)]

/-! ### Which description is made -/

theorem Tells.plain {α} {f : Nat → α} {ws : Nat} {s : SysG α} {q r : Nat} (k : Known f ws s q r) (final : Bool) {R : Nat} (h32 : 40 ≤ R) (hR : R ≤ 200)
    (hp : numBlocks s.rx.win ≤ R - 24 ∨ (compress (R - 24 - 16) s.rx.win.updateEgprsRbb).gain = false) :
    ∃ m d, Tells s final m (numBlocks s.rx.win) d ∧ d.eow = decide (numBlocks s.rx.win ≤ R - 24) ∧ d.crbb = none ∧
      (egprsDesc s.rx.win final R).flatten.length ≤ R ∧
      ∀ x, readEgprsDesc ((egprsDesc s.rx.win final R).flatten ++ x) = some (d, x) := by
  have e := desc_plain s.rx.win final hR hp
  have hs : s.rx.win.modSns (s.rx.win.vq + 1) < 2048 := by rw [Win.modSns, k.inv.hsns]; omega
  refine ⟨min (numBlocks s.rx.win) (R - 24), ⟨final, true, decide (numBlocks s.rx.win ≤ R - 24), s.rx.win.modSns (s.rx.win.vq + 1), none,
    (states s.rx.win s.rx.win.vq (min (numBlocks s.rx.win) (R - 24))).reverse⟩, ⟨rfl, rfl, rfl, ⟨[], rfl, by simp⟩, Nat.min_le_left _ _, ?_⟩,
    rfl, rfl, ?_, fun x => ?_⟩
  · intro h
    have := of_decide_eq_true h
    omega
  · rw [e]
    simp only [List.length_append, length_put, List.length_cons, List.length_reverse, length_states]
    omega
  · rw [e, states_mod _ k.inv.hsns]
    have := readEgprsDesc_spec final (decide (numBlocks s.rx.win ≤ R - 24)) hs none
      (states s.rx.win s.rx.win.vq (min (numBlocks s.rx.win) (R - 24))).reverse (by simp) (len := min (numBlocks s.rx.win) (R - 24) + 15)
      (by simp [length_states]) (by omega) x
    rw [← this]
    simp only [List.append_assoc, List.cons_append]

theorem Tells.crbb {α} {f : Nat → α} {ws : Nat} {s : SysG α} {q r : Nat} (k : Known f ws s q r) (final : Bool) {R : Nat} (h32 : 40 ≤ R) (hR : R ≤ 159)
    (hn : R - 24 < numBlocks s.rx.win) (hm : s.rx.win.updateEgprsRbb = states s.rx.win s.rx.win.vq (r - 1 - q))
    {c : Crbb.CompResult} (hc : compress (R - 24 - 16) s.rx.win.updateEgprsRbb = c) (hg : c.gain = true)
    (hl : c.crbb.length ≤ R - 32) (hu : c.uclen ≤ numBlocks s.rx.win)
    (hM : Means (startColor s.rx.win.updateEgprsRbb) c.crbb (s.rx.win.updateEgprsRbb.take c.uclen))
    (hfit : numBlocks s.rx.win ≤ c.uclen + (R - 32) → numBlocks s.rx.win + c.crbb.length ≤ c.uclen + (R - 32)) :
    ∃ m d, Tells s final m (numBlocks s.rx.win) d ∧
      (egprsDesc s.rx.win final R).flatten.length ≤ R ∧
      ∀ x, readEgprsDesc ((egprsDesc s.rx.win final R).flatten ++ x) = some (d, x) := by
  obtain ⟨u, u1, u2, u3, u4, e⟩ := desc_crbb s.rx.win final (R := R) (by omega) hn hc hg hl hu hfit
  have hs : s.rx.win.modSns (s.rx.win.vq + 1) < 2048 := by rw [Win.modSns, k.inv.hsns]; omega
  rw [states_mod _ k.inv.hsns] at e
  refine ⟨c.uclen + u, ⟨final, true, decide (numBlocks s.rx.win ≤ c.uclen + (R - 32)), s.rx.win.modSns (s.rx.win.vq + 1),
    some (startColor s.rx.win.updateEgprsRbb, c.crbb), (states s.rx.win (s.rx.win.vq + c.uclen) u).reverse⟩,
    ⟨rfl, rfl, rfl, ⟨_, hM, ?_⟩, by omega, ?_⟩, ?_, fun x => ?_⟩
  · rw [hm, states_take _ _ _ _ (by rw [← k.numBlocks]; exact hu), List.reverse_reverse, states_append]
  · intro h
    have := u3 (of_decide_eq_true h)
    omega
  · rw [e]
    simp only [List.length_append, length_put, List.length_cons, List.length_reverse, length_states]
    omega
  · rw [e]
    have := readEgprsDesc_spec final (decide (numBlocks s.rx.win ≤ c.uclen + (R - 32))) hs
      (some (startColor s.rx.win.updateEgprsRbb, c.crbb))
      (states s.rx.win (s.rx.win.vq + c.uclen) u).reverse (by intro x hx; cases hx; dsimp only; omega) (len := u + c.crbb.length + 23)
      (by simp [length_states]; omega) (by omega) x
    rw [← this]
    simp only [List.append_assoc, List.cons_append]

end Verif.UlAckMsg
