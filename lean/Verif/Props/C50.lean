import Verif.Model.ImmAss
import Verif.Spec.ImmAss
import Verif.Lemmas.BitField
/-!
# C50: Immediate Assignment

What the mobile understands from the 22 octets (`understood`, Spec/ImmAss.lean) is what the PCU has
assigned.
-/

namespace Verif.Ia

open Verif.Bits

/-! ## Readers and what they read -/

theorem bind_run {α β : Type} (x : P α) (f : α → P β) (s : Nat × List Bool) :
    (x >>= f) s = match x s with | none => none | some (a, s') => f a s' := rfl

theorem pure_run {α : Type} (a : α) (s : Nat × List Bool) : (pure a : P α) s = some (a, s) := rfl

/-- `x` reads `a` from the symbols `s`, wherever they are and whatever follows. -/
def Reads {α : Type} (x : P α) (s : List Sym) (a : α) : Prop :=
  ∀ p t, x (p, render p (s ++ t)) = some (a, (p + s.length, render (p + s.length) t))

theorem Reads.pure {α : Type} (a : α) : Reads (Pure.pure a) [] a := fun _ _ => rfl

theorem Reads.bind {α β : Type} {x : P α} {f : α → P β} {s s' : List Sym} {a : α} {b : β} (h : Reads x s a)
    (h' : Reads (f a) s' b) : Reads (x >>= f) (s ++ s') b := by
  intro p t
  rw [bind_run, List.append_assoc, h]
  dsimp only
  rw [h', List.length_append, Nat.add_assoc]

/-- The last step. -/
theorem Reads.ret {α β : Type} {x : P α} {f : α → β} {s : List Sym} {a : α} (h : Reads x s a) :
    Reads (do let y ← x; Pure.pure (f y)) s (f a) := by
  have := h.bind (f := fun y => (Pure.pure (f y) : P β)) (Reads.pure (f a))
  rwa [List.append_nil] at this

theorem render_bits (l : List Bool) : ∀ (p : Nat) (t : List Sym), render p (l.map .bit ++ t) = l ++ render (p + l.length) t := by
  induction l with
  | nil => intro p t; rfl
  | cons b l ih =>
    intro p t
    rw [List.map_cons, List.cons_append, render, ih, List.cons_append, List.length_cons]
    rw [show p + 1 + l.length = p + (l.length + 1) by omega]

@[simp] theorem length_fld (w v : Nat) : (fld w v).length = w := by unfold fld; rw [List.length_map, length_put]

theorem reads_fld (w v : Nat) : Reads (rd w) (fld w v) (v % 2 ^ w) := by
  intro p t
  unfold rd fld
  dsimp only
  rw [render_bits, get_put, length_put, List.length_map, length_put]
  rfl

theorem reads_fld' {w v : Nat} (h : v < 2 ^ w) : Reads (rd w) (fld w v) v := by
  have := reads_fld w v; rwa [Nat.mod_eq_of_lt h] at this

theorem pad_eq (p : Nat) : pad p = [false, false, true, false, true, false, true, true].getD (p % 8) false := by
  have h : ∀ q < 8, Nat.testBit 0x2b (7 - q) = [false, false, true, false, true, false, true, true].getD q false := by
    decide
  exact h _ (Nat.mod_lt _ (by decide))

theorem reads_L : Reads lh [.L] false := by
  intro p t
  unfold lh
  simp only [List.cons_append, List.nil_append, render, ← pad_eq, bne_self_eq_false, List.length_cons, List.length_nil]

theorem reads_H : Reads lh [.H] true := by
  intro p t
  unfold lh
  simp only [List.cons_append, List.nil_append, render, ← pad_eq, List.length_cons, List.length_nil]
  cases pad p <;> rfl

theorem reads_opt_none {α : Type} (x : P α) : Reads (opt x) (fld 1 0) none := by
  have := (reads_fld 1 0).bind (f := fun v => if v = 1 then (do let a ← x; Pure.pure (some a)) else (Pure.pure none : P (Option α)))
    (s' := []) (b := none) (Reads.pure none)
  rwa [List.append_nil] at this

theorem reads_opt_some {α : Type} {x : P α} {s : List Sym} {a : α} (h : Reads x s a) : Reads (opt x) (fld 1 1 ++ s) (some a) :=
  (reads_fld 1 1).bind (f := fun v => if v = 1 then (do let a ← x; Pure.pure (some a)) else (Pure.pure none : P (Option α)))
    (h.ret (f := some))

theorem reads_optH_none {α : Type} (x : P α) : Reads (optH x) [.L] none := by
  have := reads_L.bind (f := fun v => if v then (do let a ← x; Pure.pure (some a)) else (Pure.pure none : P (Option α)))
    (s' := []) (b := none) (Reads.pure none)
  rwa [List.append_nil] at this

/-! ## Frame numbers -/

theorem frameOf_rfn {rfn : Nat} (h : rfn < 42432) : frameOf (rfn / (26 * 51) % 32) (rfn % 51) (rfn % 26) = rfn := by
  have key : ∀ q < 1326, 51 * ((((q % 51 : Nat) : Int) - (q % 26 : Nat)) % 26).toNat + q % 51 = q := by decide +kernel
  have k := key (rfn % 1326) (Nat.mod_lt _ (by decide))
  have e1 : rfn % 1326 % 51 = rfn % 51 := Nat.mod_mod_of_dvd _ ⟨26, by decide⟩
  have e2 : rfn % 1326 % 26 = rfn % 26 := Nat.mod_mod_of_dvd _ ⟨51, by decide⟩
  rw [e1, e2] at k
  unfold frameOf
  have e3 : rfn / (26 * 51) % 32 = rfn / 1326 := by omega
  rw [e3]
  have : 51 * ((((rfn % 51 : Nat) : Int) - (rfn % 26 : Nat)) % 26).toNat + rfn % 51 = rfn % 1326 := k
  omega

theorem reads_frame {rfn : Nat} (h : rfn < 42432) : Reads frame (startTime rfn) rfn := by
  have h1 : rfn / (26 * 51) % 32 < 2 ^ 5 := Nat.mod_lt _ (by decide)
  have h2 : rfn % 51 < 2 ^ 6 := Nat.lt_trans (Nat.mod_lt _ (by decide)) (by decide)
  have h3 : rfn % 26 < 2 ^ 5 := Nat.lt_trans (Nat.mod_lt _ (by decide)) (by decide)
  have := (reads_fld' h1).bind (f := fun t1 => do let t3 ← rd 6; let t2 ← rd 5; return frameOf t1 t3 t2)
    ((reads_fld' h2).bind (f := fun t3 => do let t2 ← rd 5; return frameOf (rfn / (26 * 51) % 32) t3 t2)
      ((reads_fld' h3).ret (f := fun t2 => frameOf (rfn / (26 * 51) % 32) (rfn % 51) t2)))
  rwa [frameOf_rfn h] at this

/-! ## Parts of the message -/

/-- The value of `alpha` in a message: 0 is not sent. -/
def alphaOf (alpha : Nat) : Option Nat := if alpha = 0 then none else some alpha

theorem reads_alpha {alpha : Nat} (h : alpha < 16) :
    Reads (opt (rd 4)) (if alpha ≠ 0 then fld 1 1 ++ fld 4 alpha else fld 1 0) (alphaOf alpha) := by
  unfold alphaOf
  by_cases ha : alpha = 0
  · rw [if_neg (by simp [ha]), if_pos ha]; exact reads_opt_none _
  · rw [if_pos ha, if_neg ha]; exact reads_opt_some (reads_fld' h)

theorem reads_tai {tai : Option Nat} (h : ∀ i, tai = some i → i < 16) : Reads (opt (rd 4)) (taIndex tai) tai := by
  cases tai with
  | none => exact reads_opt_none _
  | some i => exact reads_opt_some (reads_fld' (h i rfl))

/-- Legal window sizes. -/
def WsOk (ws : Nat) : Prop := 64 ≤ ws ∧ ws ≤ 1024 ∧ ws % 32 = 0

theorem reads_window {ws : Nat} (h : WsOk ws) : Reads window (fld 5 (encWs ws)) ws := by
  obtain ⟨h1, h2, h3⟩ := h
  have hb : encWs ws < 2 ^ 5 := by unfold encWs; omega
  have hn : ¬ encWs ws = 31 := by unfold encWs; omega
  have e : 64 + 32 * encWs ws = ws := by unfold encWs; omega
  have := (reads_fld' hb).bind (f := fun n => if n = 31 then bad else (Pure.pure (64 + 32 * n) : P Nat)) (s' := []) (b := ws)
    (by rw [if_neg hn, e]; exact Reads.pure _)
  rwa [List.append_nil] at this

theorem reads_octets : ∀ {l : List Nat}, (∀ o ∈ l, o < 256) → Reads (octets l.length) (l.flatMap (fld 8)) l
  | [], _ => Reads.pure _
  | o :: l, h => by
    have h1 : o < 2 ^ 8 := h o List.mem_cons_self
    rw [List.flatMap_cons]
    exact (reads_fld' h1).bind ((reads_octets fun x hx => h x (List.mem_cons_of_mem _ hx)).ret (f := fun l => o :: l))

theorem Reads.bind2 {α β : Type} {x : P α} {f : α → P β} {s₁ s₂ s' : List Sym} {a : α} {b : β} (h : Reads x (s₁ ++ s₂) a)
    (h' : Reads (f a) s' b) : Reads (x >>= f) (s₁ ++ (s₂ ++ s')) b := by
  rw [← List.append_assoc]; exact h.bind h'

theorem reads_00 : Reads (rd 2) (fld 1 0 ++ fld 1 0) 0 := reads_fld 2 0
theorem reads_01 : Reads (rd 2) (fld 1 0 ++ fld 1 1) 1 := reads_fld 2 1
theorem reads_06 : Reads (rd 8) (fld 4 0 ++ fld 4 6) 6 := reads_fld 8 6

theorem toNat_lt (b : Bool) : b.toNat < 2 ^ 1 := by cases b <;> decide
theorem toNat_beq (b : Bool) : (b.toNat == 1) = b := by cases b <;> rfl

theorem reads_pktUlTbf {t : Tbf} {usf alpha gamma : Nat} {tai : Option Nat} (h1 : t.tfi < 32) (h2 : usf < 8) (h3 : t.code < 4)
    (h4 : alpha < 16) (h5 : gamma < 32) (h6 : ∀ i, tai = some i → i < 16) :
    Reads pktUl (restUlMba t usf alpha gamma tai)
      (.ulTbf t.tfi false usf 0 none t.code true (alphaOf alpha) gamma tai none) := by
  unfold pktUl restUlMba tfiUsf alphaGamma
  simp only [List.append_assoc]
  refine (reads_fld' (by decide)).bind ?_
  rw [if_pos rfl]
  refine (reads_fld' h1).bind ?_
  refine (reads_fld' (by decide)).bind ?_
  refine (reads_fld' (by decide)).bind ?_
  refine (reads_fld' h2).bind ?_
  refine (reads_fld' (by decide)).bind ?_
  refine (reads_opt_none _).bind ?_
  refine (reads_fld' h3).bind ?_
  refine (reads_fld' (by decide)).bind ?_
  refine (reads_alpha h4).bind ?_
  refine (reads_fld' h5).bind ?_
  refine (reads_tai h6).bind ?_
  exact (reads_opt_none _).ret

theorem reads_pktUlBlock {rfn alpha gamma : Nat} (h1 : rfn < 42432) (h4 : alpha < 16) (h5 : gamma < 32) :
    Reads pktUl (fld 1 0 ++ (alphaGamma alpha gamma ++ (fld 1 0 ++ (fld 1 1 ++ (startTime rfn ++ [.L]))))) (.ulBlock (alphaOf alpha) gamma rfn) := by
  unfold pktUl alphaGamma
  simp only [List.append_assoc]
  refine (reads_fld' (by decide)).bind ?_
  rw [if_neg (by decide)]
  refine (reads_alpha h4).bind ?_
  refine (reads_fld' h5).bind ?_
  refine reads_01.bind2 ?_
  rw [if_neg (by decide)]
  refine (reads_frame h1).bind ?_
  rw [← List.append_nil [Sym.L]]
  refine reads_L.bind ?_
  exact Reads.pure _

/-- The part of `restEgprsSba` that is read; the last bit is outside (additions for Rel-7). -/
def restEgprsSba' (t : Tbf) (usf alpha gamma : Nat) (tai : Option Nat) : List Sym :=
  fld 1 1 ++ (tfiUsf t.tfi usf ++ (fld 4 t.code ++ ([ofNat t.tlli] ++ (fld 1 0 ++ (fld 1 0 ++
  (fld 5 (encWs t.ws) ++ (alphaGamma alpha gamma ++ (taIndex tai ++ fld 1 0))))))))

theorem reads_egprsTbf {t : Tbf} {ext usf alpha gamma : Nat} {tai : Option Nat} (h0 : ext < 32) (h1 : t.tfi < 32) (h2 : usf < 8)
    (h3 : t.code < 16) (h4 : alpha < 16) (h5 : gamma < 32) (h6 : ∀ i, tai = some i → i < 16) (h7 : WsOk t.ws) (h8 : 4 ≤ t.tlli) :
    Reads egprsUl (fld 5 ext ++ (fld 1 0 ++ restEgprsSba' t usf alpha gamma tai))
      (.egprsUlTbf ext t.tfi false usf 0 none t.code false none false t.ws (alphaOf alpha) gamma tai none) := by
  have hs : ofNat t.tlli = .bit false := by
    unfold ofNat
    split <;> first | rfl | omega
  have hz : Reads (rd 1) [ofNat t.tlli] 0 := by rw [hs]; exact reads_fld 1 0
  unfold egprsUl restEgprsSba' tfiUsf alphaGamma
  simp only [List.append_assoc]
  refine (reads_fld' h0).bind ?_
  refine (reads_fld' (by decide)).bind ?_
  rw [if_neg (by decide)]
  refine (reads_fld' (by decide)).bind ?_
  rw [if_pos rfl]
  refine (reads_fld' h1).bind ?_
  refine (reads_fld' (by decide)).bind ?_
  refine (reads_fld' (by decide)).bind ?_
  refine (reads_fld' h2).bind ?_
  refine (reads_fld' (by decide)).bind ?_
  refine (reads_opt_none _).bind ?_
  refine (reads_fld' h3).bind ?_
  refine hz.bind ?_
  refine (reads_opt_none _).bind ?_
  refine (reads_fld' (by decide)).bind ?_
  refine (reads_window h7).bind ?_
  refine (reads_alpha h4).bind ?_
  refine (reads_fld' h5).bind ?_
  refine (reads_tai h6).bind ?_
  exact (reads_opt_none _).ret

theorem reads_egprsBlocks {ext rfn alpha gamma : Nat} (h0 : ext < 32) (h1 : rfn < 42432) (h4 : alpha < 16) (h5 : gamma < 32) :
    Reads egprsUl (fld 5 ext ++ (fld 1 0 ++ restEgprsMba rfn alpha gamma)) (.egprsUlBlocks ext (alphaOf alpha) gamma rfn 1 none) := by
  unfold egprsUl restEgprsMba alphaGamma
  simp only [List.append_assoc]
  refine (reads_fld' h0).bind ?_
  refine (reads_fld' (by decide)).bind ?_
  rw [if_neg (by decide)]
  refine (reads_fld' (by decide)).bind ?_
  rw [if_neg (by decide)]
  refine (reads_alpha h4).bind ?_
  refine (reads_fld' h5).bind ?_
  refine (reads_frame h1).bind ?_
  refine reads_00.bind2 ?_
  exact (reads_opt_none _).ret

/-- The additions of R99 in a downlink assignment, with `l` where BEP_PERIOD2 is looked for. -/
def dlAdd (t : Tbf) (l : List Sym) : List Sym :=
  if t.egprs then [.H] ++ (fld 5 (encWs t.ws) ++ (fld 1 0 ++ (fld 1 0 ++ (fld 1 1 ++ l)))) else [.L]

def dlFirst (t : Tbf) (polling taValid : Bool) (rfn alpha gamma : Nat) (tai : Option Nat) : List Sym :=
  fld 32 t.tlli ++ (fld 1 1 ++ (fld 5 t.tfi ++ (fld 1 0 ++
  (alphaGamma alpha gamma ++ (fld 1 polling.toNat ++ (fld 1 taValid.toNat ++ (taIndex tai ++
  ((if polling then fld 1 1 ++ startTime rfn else fld 1 0) ++ fld 1 0))))))))

theorem reads_start {polling : Bool} {rfn : Nat} (h : rfn < 42432) :
    Reads (opt frame) (if polling then fld 1 1 ++ startTime rfn else fld 1 0) (if polling then some rfn else none) := by
  cases polling
  · exact reads_opt_none _
  · exact reads_opt_some (reads_frame h)

theorem reads_pktDl {t : Tbf} {polling taValid : Bool} {rfn alpha gamma v : Nat} {tai : Option Nat} (h0 : t.tlli < 2 ^ 32)
    (h1 : t.tfi < 32) (h2 : rfn < 42432) (h4 : alpha < 16) (h5 : gamma < 32) (h6 : ∀ i, tai = some i → i < 16)
    (h7 : t.egprs = true → WsOk t.ws) (hv : v < 16) :
    Reads pktDl (dlFirst t polling taValid rfn alpha gamma tai ++ dlAdd t (fld 4 v))
      (.dl t.tlli t.tfi false (alphaOf alpha) gamma polling taValid tai (if polling then some rfn else none) none
        (if t.egprs then some ⟨t.ws, 0, some v⟩ else none)) := by
  have e1 := toNat_beq polling
  have e2 := toNat_beq taValid
  unfold pktDl dlFirst alphaGamma
  simp only [List.append_assoc]
  refine (reads_fld' h0).bind ?_
  refine (reads_fld' (by decide)).bind ?_
  rw [if_neg (by decide)]
  refine (reads_fld' h1).bind ?_
  refine (reads_fld' (by decide)).bind ?_
  refine (reads_alpha h4).bind ?_
  refine (reads_fld' h5).bind ?_
  refine (reads_fld' (toNat_lt polling)).bind ?_
  refine (reads_fld' (toNat_lt taValid)).bind ?_
  refine (reads_tai h6).bind ?_
  refine (reads_start h2).bind ?_
  refine (reads_opt_none _).bind ?_
  rw [e1, e2]
  refine Reads.ret (f := fun e => Rest.dl t.tlli t.tfi false (alphaOf alpha) gamma polling taValid tai _ none e) ?_
  unfold dlAdd
  cases he : t.egprs
  · exact reads_optH_none _
  · refine reads_H.bind ?_
    rw [if_pos rfl]
    refine Reads.ret (f := some) ?_
    refine (reads_window (h7 he)).bind ?_
    refine reads_00.bind2 ?_
    exact Reads.ret (reads_opt_some (reads_fld' hv))

/-- Legal values of what the messages say of a channel. -/
structure PdchOk (p : Pdch) : Prop where
  ts : p.ts < 8
  tsc : p.tsc < 8
  hop : ∀ h, p.hop = some h → h.maio < 64 ∧ h.hsn < 64 ∧ h.ma.length ≤ 8 ∧ ∀ o ∈ h.ma, o < 256

/-- Frequencies of a channel; the upper bits of the ARFCN are flags. -/
def freqOf (p : Pdch) : Freq :=
  match p.hop with
  | some h => .hop h.maio h.hsn
  | none => .arfcn (p.arfcn % 1024)

def maOf (p : Pdch) : List Nat := (p.hop.map (·.ma)).getD []

theorem reads_header {p : Pdch} {downlink : Bool} {ra refRfn ta : Nat} {b : Burst} {s : List Sym} {r : Rest} (hp : PdchOk p)
    (hr : refRfn < 42432) (hs : Reads rest s r) :
    Reads assignment (header p downlink ra refRfn ta b ++ s)
      ⟨downlink, p.ts, p.tsc, freqOf p, if b.egprs then 0x7f else ra % 256, refRfn, ta % 64, maOf p, r⟩ := by
  have hra : (if b.egprs = true then 0x7f else ra) % 2 ^ 8 = if b.egprs then 0x7f else ra % 256 := by
    split <;> rfl
  have e1 := toNat_beq downlink
  unfold assignment header
  simp only [List.append_assoc]
  refine reads_06.bind2 ?_
  rw [if_neg (by decide)]
  refine (reads_fld' (by decide)).bind ?_
  rw [if_neg (by decide)]
  refine reads_00.bind2 ?_
  rw [if_neg (by decide)]
  refine (reads_fld' (toNat_lt downlink)).bind ?_
  refine (reads_fld' (by decide)).bind ?_
  rw [if_neg (by decide)]
  refine (reads_fld' (by decide)).bind ?_
  rw [if_neg (by decide)]
  refine (reads_fld' (by decide)).bind ?_
  rw [if_neg (by decide)]
  refine (reads_fld' hp.ts).bind ?_
  refine (reads_fld' hp.tsc).bind ?_
  unfold freq mobAlloc freqOf maOf
  have hh := hp.hop
  cases hx : p.hop with
  | none =>
    dsimp only [Option.map_none, Option.getD_none]
    rw [show fld 3 0 = fld 1 0 ++ fld 2 0 from rfl]
    simp only [List.append_assoc]
    refine (reads_fld' (by decide)).bind ?_
    refine Reads.bind2 (s₁ := fld 2 0) (s₂ := fld 10 p.arfcn) (a := Freq.arfcn (p.arfcn % 1024)) ?_ ?_
    · rw [if_neg (by decide)]
      refine (reads_fld' (by decide)).bind ?_
      rw [if_neg (by decide)]
      exact (reads_fld 10 p.arfcn).ret
    · refine (reads_fld 8 _).bind ?_
      rw [hra]
      refine (reads_frame hr).bind ?_
      refine (reads_fld' (by decide)).bind ?_
      refine (reads_fld 6 _).bind ?_
      refine (reads_fld' (by decide)).bind ?_
      refine (Reads.pure []).bind (s := []) ?_
      rw [e1]
      exact hs.ret
  | some h =>
    obtain ⟨a1, a2, a3, a4⟩ := hh h hx
    dsimp only [Option.map_some, Option.getD_some]
    simp only [List.append_assoc]
    refine (reads_fld' (by decide)).bind ?_
    refine Reads.bind2 (s₁ := fld 6 h.maio) (s₂ := fld 6 h.hsn) (a := Freq.hop h.maio h.hsn) ?_ ?_
    · rw [if_pos rfl]
      refine (reads_fld' a1).bind ?_
      exact (reads_fld' a2).ret
    · refine (reads_fld 8 _).bind ?_
      rw [hra]
      refine (reads_frame hr).bind ?_
      refine (reads_fld' (by decide)).bind ?_
      refine (reads_fld 6 _).bind ?_
      refine (reads_fld' (Nat.lt_of_le_of_lt a3 (by decide))).bind ?_
      refine (reads_octets a4).bind ?_
      rw [e1]
      exact hs.ret

theorem length_render : ∀ (s : List Sym) (p : Nat), (render p s).length = s.length
  | [], _ => rfl
  | .bit _ :: s, p => by rw [render, List.length_cons, length_render s, List.length_cons]
  | .L :: s, p => by rw [render, List.length_cons, length_render s, List.length_cons]
  | .H :: s, p => by rw [render, List.length_cons, length_render s, List.length_cons]

theorem render_append : ∀ (s t : List Sym) (p : Nat), render p (s ++ t) = render p s ++ render (p + s.length) t
  | [], _, _ => rfl
  | .bit _ :: s, t, p => by
    rw [List.cons_append, render, render_append s, render, List.cons_append, List.length_cons, Nat.add_assoc, Nat.add_comm 1]
  | .L :: s, t, p => by
    rw [List.cons_append, render, render_append s, render, List.cons_append, List.length_cons, Nat.add_assoc, Nat.add_comm 1]
  | .H :: s, t, p => by
    rw [List.cons_append, render, render_append s, render, List.cons_append, List.length_cons, Nat.add_assoc, Nat.add_comm 1]

theorem length_flatMap_fld (l : List Nat) : (l.flatMap (fld 8)).length = 8 * l.length := by
  induction l with
  | nil => rfl
  | cons a l ih => rw [List.flatMap_cons, List.length_append, ih, length_fld, List.length_cons]; omega

theorem length_header (p : Pdch) (d : Bool) (ra refRfn ta : Nat) (b : Burst) :
    (header p d ra refRfn ta b).length = 88 + 8 * (maOf p).length := by
  unfold header freq mobAlloc startTime maOf
  cases p.hop with
  | none => simp only [List.length_append, length_fld, Option.map_none, Option.getD_none, List.length_nil]
  | some h =>
    simp only [List.length_append, length_fld, length_flatMap_fld, Option.map_some, Option.getD_some]
    omega

/-- Length of a message that is sent, and how to read it. -/
theorem finish_msg {h s : List Sym} {n : Nat} {m : List Bool} (e : finish h s = .msg n m) :
    n = h.length / 8 ∧ m.length = 176 ∧ ∃ t, m = render 0 (h ++ (s ++ t)) ∧ t = List.replicate (176 - (h ++ s).length) .L ∧
      (h ++ s).length ≤ 176 := by
  unfold finish at e
  split at e
  · cases e
  · rename_i hl
    cases e
    refine ⟨rfl, ?_, _, rfl, rfl, by omega⟩
    rw [length_render]
    simp only [List.length_append, List.length_replicate] at *
    omega

theorem finish_fits {h s : List Sym} : (∃ n m, finish h s = .msg n m) ↔ (h ++ s).length ≤ 176 := by
  unfold finish
  split
  · exact ⟨fun ⟨_, _, e⟩ => (nomatch e), fun _ => by omega⟩
  · exact ⟨fun _ => by omega, fun _ => ⟨_, _, rfl⟩⟩

/-- A message whose rest octets begin with `s`. -/
theorem understood_of {p : Pdch} {d : Bool} {ra refRfn ta : Nat} {b : Burst} {s t : List Sym} {r : Rest} (hp : PdchOk p)
    (hr : refRfn < 42432) (hs : Reads rest s r) :
    understood (render 0 (header p d ra refRfn ta b ++ (s ++ t))) =
      some ⟨d, p.ts, p.tsc, freqOf p, if b.egprs then 0x7f else ra % 256, refRfn, ta % 64, maOf p, r⟩ := by
  unfold understood
  rw [← List.append_assoc, reads_header hp hr hs]
  rfl

theorem reads_rest_ul {s : List Sym} {r : Rest} (h : Reads pktUl s r) : Reads rest ([Sym.H, .H] ++ (fld 1 0 ++ (fld 1 0 ++ s))) r := by
  unfold rest
  show Reads _ ([Sym.H] ++ ([Sym.H] ++ (fld 1 0 ++ (fld 1 0 ++ s)))) r
  refine reads_H.bind ?_
  refine reads_H.bind ?_
  refine reads_00.bind2 ?_
  exact h

theorem reads_rest_dl {s : List Sym} {r : Rest} (h : Reads pktDl s r) : Reads rest ([Sym.H, .H] ++ (fld 1 0 ++ (fld 1 1 ++ s))) r := by
  unfold rest
  show Reads _ ([Sym.H] ++ ([Sym.H] ++ (fld 1 0 ++ (fld 1 1 ++ s)))) r
  refine reads_H.bind ?_
  refine reads_H.bind ?_
  refine reads_01.bind2 ?_
  exact h

theorem reads_rest_egprs {s : List Sym} {r : Rest} (h : Reads egprsUl s r) : Reads rest ([.L, .H] ++ (fld 1 0 ++ (fld 1 0 ++ s))) r := by
  unfold rest
  show Reads _ ([Sym.L] ++ ([Sym.H] ++ (fld 1 0 ++ (fld 1 0 ++ s)))) r
  refine reads_L.bind ?_
  refine reads_H.bind ?_
  refine reads_00.bind2 ?_
  exact h

/-- Power control parameters and timing advance index that can be sent. -/
structure ParOk (alpha gamma : Nat) (tai : Option Nat) : Prop where
  alpha : alpha < 16
  gamma : gamma < 32
  tai : ∀ i, tai = some i → i < 16

/-! ## The property -/

/-- **C50**, uplink TBF asked for by an 8-bit request: the mobile understands the channel, its request,
its timing advance, TFI, USF and coding scheme. -/
theorem C50_ul_tbf {p : Pdch} {t : Tbf} {ra refRfn ta usf rfn alpha gamma n : Nat} {tai : Option Nat} {b : Burst} {m : List Bool}
    (hp : PdchOk p) (hq : ParOk alpha gamma tai) (hra : ra < 256) (hr : refRfn < 42432) (hta : ta < 64) (h1 : t.tfi < 32)
    (h2 : usf < 8) (h3 : t.code < 4) (hb : b.egprs = false)
    (h : uplink p (some t) ra refRfn ta usf rfn alpha gamma tai b = .msg n m) :
    n = 11 + (maOf p).length ∧ m.length = 176 ∧ understood m = some ⟨false, p.ts, p.tsc, freqOf p, ra, refRfn, ta, maOf p,
      .ulTbf t.tfi false usf 0 none t.code true (alphaOf alpha) gamma tai none⟩ := by
  unfold uplink at h
  rw [hb, if_neg (by decide)] at h
  split at h
  · cases h
  · obtain ⟨a1, a2, r, a3, -⟩ := finish_msg h
    rw [length_header] at a1
    refine ⟨by omega, a2, ?_⟩
    rw [a3, understood_of hp hr (reads_rest_ul (reads_pktUlTbf h1 h2 h3 hq.alpha hq.gamma hq.tai)), hb, if_neg (by decide),
      Nat.mod_eq_of_lt hra, Nat.mod_eq_of_lt hta]

/-- **C50**, single block asked for by an 8-bit request. -/
theorem C50_ul_block {p : Pdch} {ra refRfn ta usf rfn alpha gamma n : Nat} {tai : Option Nat} {b : Burst} {m : List Bool}
    (hp : PdchOk p) (hq : ParOk alpha gamma tai) (hra : ra < 256) (hr : refRfn < 42432) (hta : ta < 64) (h1 : rfn < 42432)
    (hb : b.egprs = false) (h : uplink p none ra refRfn ta usf rfn alpha gamma tai b = .msg n m) :
    n = 11 + (maOf p).length ∧ m.length = 176 ∧ understood m = some ⟨false, p.ts, p.tsc, freqOf p, ra, refRfn, ta, maOf p,
      .ulBlock (alphaOf alpha) gamma rfn⟩ := by
  unfold uplink at h
  rw [hb, if_neg (by decide), if_neg (by decide)] at h
  obtain ⟨a1, a2, r, a3, -⟩ := finish_msg h
  rw [length_header] at a1
  refine ⟨by omega, a2, ?_⟩
  have e : ([Sym.H, .H] ++ (fld 1 0 ++ (fld 1 0 ++ restUlSba rfn alpha gamma))) ++ r = ([Sym.H, .H] ++ (fld 1 0 ++ (fld 1 0 ++
      (fld 1 0 ++ (alphaGamma alpha gamma ++ (fld 1 0 ++ (fld 1 1 ++ (startTime rfn ++ [.L])))))))) ++ ([.L, .L] ++ r) := by
    unfold restUlSba
    simp only [List.append_assoc, List.cons_append, List.nil_append]
  rw [a3]
  dsimp only
  rw [e, understood_of hp hr (reads_rest_ul (reads_pktUlBlock h1 hq.alpha hq.gamma)), hb, if_neg (by decide),
    Nat.mod_eq_of_lt hra, Nat.mod_eq_of_lt hta]

/-- **C50**, uplink TBF asked for by an EGPRS request of 11 bits. The TLLI of the mobile is not known
yet (`0xFFFFFFFF`). -/
theorem C50_egprs_ul_tbf {p : Pdch} {t : Tbf} {ra refRfn ta usf rfn alpha gamma n : Nat} {tai : Option Nat} {b : Burst} {m : List Bool}
    (hp : PdchOk p) (hq : ParOk alpha gamma tai) (hr : refRfn < 42432) (hta : ta < 64) (h1 : t.tfi < 32)
    (h2 : usf < 8) (h3 : t.code < 16) (hw : WsOk t.ws) (ht : t.tlli = 0xFFFFFFFF) (hb : b.egprs = true)
    (h : uplink p (some t) ra refRfn ta usf rfn alpha gamma tai b = .msg n m) :
    n = 11 + (maOf p).length ∧ m.length = 176 ∧ understood m = some ⟨false, p.ts, p.tsc, freqOf p, 0x7f, refRfn, ta, maOf p,
      .egprsUlTbf (ra % 32) t.tfi false usf 0 none t.code false none false t.ws (alphaOf alpha) gamma tai none⟩ := by
  unfold uplink at h
  rw [hb, if_pos rfl] at h
  obtain ⟨a1, a2, r, a3, -⟩ := finish_msg h
  rw [length_header] at a1
  refine ⟨by omega, a2, ?_⟩
  have e : ([Sym.L, .H] ++ (fld 1 0 ++ (fld 1 0 ++ (fld 5 (ra % 32) ++ (fld 1 0 ++ restEgprsSba t usf alpha gamma tai))))) ++ r =
      ([Sym.L, .H] ++ (fld 1 0 ++ (fld 1 0 ++ (fld 5 (ra % 32) ++ (fld 1 0 ++ restEgprsSba' t usf alpha gamma tai))))) ++ (fld 1 0 ++ r) := by
    unfold restEgprsSba restEgprsSba'
    simp only [List.append_assoc]
  rw [a3]
  dsimp only
  rw [e, understood_of hp hr (reads_rest_egprs (reads_egprsTbf (Nat.mod_lt _ (by decide)) h1 h2 h3 hq.alpha hq.gamma hq.tai hw (by omega))),
    hb, if_pos rfl, Nat.mod_eq_of_lt hta]

/-- **C50**, single block asked for by an EGPRS request of 11 bits. -/
theorem C50_egprs_ul_block {p : Pdch} {ra refRfn ta usf rfn alpha gamma n : Nat} {tai : Option Nat} {b : Burst} {m : List Bool}
    (hp : PdchOk p) (hq : ParOk alpha gamma tai) (hr : refRfn < 42432) (hta : ta < 64) (h1 : rfn < 42432) (hb : b.egprs = true)
    (h : uplink p none ra refRfn ta usf rfn alpha gamma tai b = .msg n m) :
    n = 11 + (maOf p).length ∧ m.length = 176 ∧ understood m = some ⟨false, p.ts, p.tsc, freqOf p, 0x7f, refRfn, ta, maOf p,
      .egprsUlBlocks (ra % 32) (alphaOf alpha) gamma rfn 1 none⟩ := by
  unfold uplink at h
  rw [hb, if_pos rfl] at h
  obtain ⟨a1, a2, r, a3, -⟩ := finish_msg h
  rw [length_header] at a1
  refine ⟨by omega, a2, ?_⟩
  rw [a3]
  dsimp only
  rw [understood_of hp hr (reads_rest_egprs (reads_egprsBlocks (Nat.mod_lt _ (by decide)) h1 hq.alpha hq.gamma)),
    hb, if_pos rfl, Nat.mod_eq_of_lt hta]

theorem restDl_eq (t : Tbf) (polling taValid : Bool) (rfn alpha gamma : Nat) (tai : Option Nat) :
    restDl t polling taValid rfn alpha gamma tai =
      [.H, .H] ++ (fld 1 0 ++ (fld 1 1 ++ (dlFirst t polling taValid rfn alpha gamma tai ++ dlAdd t []))) := by
  unfold restDl dlFirst dlAdd
  simp only [List.append_assoc, List.append_nil]

/-- **C50**, downlink TBF of a mobile that has no EGPRS TBF. A timing advance that is not known is marked as
not valid; the request reference is 21216 frames away from the last block. -/
theorem C50_dl_partial {p : Pdch} {t : Tbf} {last ta alpha gamma n : Nat} {m : List Bool} (hp : PdchOk p)
    (hq : ParOk alpha gamma none) (h0 : t.tlli < 2 ^ 32) (h1 : t.tfi < 32) (hg : t.egprs = false)
    (h : sndDlAss p t last ta alpha gamma = .msg n m) :
    n = 11 + (maOf p).length ∧ m.length = 176 ∧ understood m = some ⟨true, p.ts, p.tsc, freqOf p, 125, (last + 21216) % 42432,
      ta % 64, maOf p, .dl t.tlli t.tfi false (alphaOf alpha) gamma false (decide (ta < 64)) none none none none⟩ := by
  unfold sndDlAss downlink at h
  obtain ⟨a1, a2, r, a3, -⟩ := finish_msg h
  rw [length_header] at a1
  refine ⟨by omega, a2, ?_⟩
  have hd := reads_pktDl (polling := false) (taValid := decide (ta < 64)) (v := 0) h0 h1 (show 0 < 42432 by decide) hq.alpha
    hq.gamma hq.tai (fun e => by rw [hg] at e; cases e) (by decide)
  have e : dlAdd t (fld 4 0) = dlAdd t [] := by unfold dlAdd; rw [hg]; rfl
  rw [e] at hd
  have e' : (last + 21216) % 2715648 % 42432 = (last + 21216) % 42432 := Nat.mod_mod_of_dvd _ ⟨64, by decide⟩
  rw [a3, restDl_eq, understood_of hp (Nat.mod_lt _ (by decide)) (reads_rest_dl hd), e']
  simp [Burst.egprs, hg]

theorem render_L4 (p : Nat) : ∃ v, v < 16 ∧ ∀ t, render p ([.L, .L, .L, .L] ++ t) = render p (fld 4 v ++ t) := by
  have key : ∀ a b c d : Bool, ∃ v, v < 16 ∧ put 4 v = [a, b, c, d] := by decide
  obtain ⟨v, hv, e⟩ := key (pad p) (pad (p + 1)) (pad (p + 1 + 1)) (pad (p + 1 + 1 + 1))
  refine ⟨v, hv, fun t => ?_⟩
  unfold fld
  rw [render_bits, e]
  rfl

/-- **C50**, false for a downlink TBF of an EGPRS mobile: the bit after the measurement mode says that
BEP_PERIOD2 follows, though none is sent; the mobile takes four bits of padding for it. All other
parts are right. -/
theorem C50_dl_bep_period {p : Pdch} {t : Tbf} {last ta alpha gamma n : Nat} {m : List Bool} (hp : PdchOk p)
    (hq : ParOk alpha gamma none) (h0 : t.tlli < 2 ^ 32) (h1 : t.tfi < 32) (hg : t.egprs = true) (hw : WsOk t.ws) (hn : (maOf p).length ≤ 2)
    (h : sndDlAss p t last ta alpha gamma = .msg n m) :
    ∃ v, understood m = some ⟨true, p.ts, p.tsc, freqOf p, 125, (last + 21216) % 42432,
      ta % 64, maOf p, .dl t.tlli t.tfi false (alphaOf alpha) gamma false (decide (ta < 64)) none none none (some ⟨t.ws, 0, some v⟩)⟩ := by
  unfold sndDlAss downlink at h
  obtain ⟨a1, a2, r, a3, a4, a5⟩ := finish_msg h
  rw [restDl_eq] at a3 a4 a5
  have hl : ∃ r', r = [.L, .L, .L, .L] ++ r' := by
    have hlen : 4 ≤ 176 - (header p true 125 ((last + 21216) % 2715648 % 42432) ta .access0 ++ ([Sym.H, .H] ++ (fld 1 0 ++ (fld 1 1 ++
      (dlFirst t false (decide (ta < 64)) 0 alpha gamma none ++ dlAdd t []))))).length := by
      simp only [List.length_append, length_header, dlFirst, dlAdd, hg, if_pos, alphaGamma, taIndex, length_fld, List.length_cons,
        List.length_nil]
      by_cases ha : alpha = 0
      · simp only [ha, ne_eq, not_true_eq_false, if_false, length_fld, Bool.false_eq_true]
        omega
      · simp only [ha, ne_eq, not_false_eq_true, if_true, length_fld, Bool.false_eq_true, if_false, List.length_append]
        omega
    obtain ⟨k, hk⟩ := Nat.le.dest hlen
    exact ⟨List.replicate k .L, by rw [a4, ← hk, ← List.replicate_append_replicate]; rfl⟩
  obtain ⟨r', rfl⟩ := hl
  obtain ⟨v, hv, ev⟩ := render_L4 (0 + (header p true 125 ((last + 21216) % 2715648 % 42432) ta .access0 ++ ([Sym.H, .H] ++ (fld 1 0 ++ (fld 1 1 ++
      (dlFirst t false (decide (ta < 64)) 0 alpha gamma none ++ dlAdd t []))))).length)
  refine ⟨v, ?_⟩
  have hd := reads_pktDl (polling := false) (taValid := decide (ta < 64)) (v := v) h0 h1 (show 0 < 42432 by decide) hq.alpha
    hq.gamma hq.tai (fun _ => hw) hv
  have e' : (last + 21216) % 2715648 % 42432 = (last + 21216) % 42432 := Nat.mod_mod_of_dvd _ ⟨64, by decide⟩
  have e2 : m = render 0 (header p true 125 ((last + 21216) % 2715648 % 42432) ta .access0 ++ (([Sym.H, .H] ++ (fld 1 0 ++ (fld 1 1 ++
      (dlFirst t false (decide (ta < 64)) 0 alpha gamma none ++ dlAdd t (fld 4 v))))) ++ r')) := by
    rw [a3, ← List.append_assoc, render_append, ev, ← render_append]
    unfold dlAdd
    simp only [hg, if_true, List.append_assoc, List.append_nil]
  rw [e2, understood_of hp (Nat.mod_lt _ (by decide)) (reads_rest_dl hd), e']
  simp [Burst.egprs, hg]

/-- **C50**, what is sent: every uplink message if the list of hopping frequencies has five octets or
less; every downlink message if it has two or less. -/
theorem C50_ul_sent {p : Pdch} {t : Option Tbf} {ra refRfn ta usf rfn alpha gamma : Nat} {b : Burst}
    (hn : (maOf p).length ≤ 5) (ht : ∀ x, t = some x → x.egprs = true → b.egprs = true) :
    ∃ n m, uplink p t ra refRfn ta usf rfn alpha gamma none b = .msg n m := by
  unfold uplink
  cases hb : b.egprs
  · rw [if_neg (by decide)]
    have hc : ¬ ((t.map (·.egprs)).getD false) = true := by
      cases t with
      | none => decide
      | some x => intro e; have := ht x rfl e; rw [hb] at this; cases this
    rw [if_neg hc, finish_fits]
    cases t <;>
    · simp only [List.length_append, length_header, restUlMba, restUlSba, startTime, tfiUsf, alphaGamma, taIndex, length_fld,
        List.length_cons, List.length_nil]
      split <;> simp only [List.length_append, length_fld] <;> omega
  · rw [if_pos rfl, finish_fits]
    cases t <;>
    · simp only [List.length_append, length_header, restEgprsMba, restEgprsSba, startTime, tfiUsf, alphaGamma, taIndex, length_fld,
        List.length_cons, List.length_nil]
      split <;> simp only [List.length_append, length_fld] <;> omega

theorem C50_dl_sent {p : Pdch} {t : Tbf} {last ta alpha gamma : Nat} (hn : (maOf p).length ≤ 2) :
    ∃ n m, sndDlAss p t last ta alpha gamma = .msg n m := by
  unfold sndDlAss downlink
  rw [finish_fits]
  simp only [List.length_append, length_header, restDl, alphaGamma, taIndex, length_fld, List.length_cons, List.length_nil,
    Bool.false_eq_true, if_false]
  split <;> split <;> simp only [List.length_append, length_fld, List.length_cons, List.length_nil] <;> omega

/-- Longer lists of hopping frequencies: nothing is sent to a mobile for which a TBF has been allocated. -/
theorem C50_ul_not_sent {p : Pdch} {t : Tbf} {ra refRfn ta usf rfn alpha gamma : Nat} {b : Burst}
    (hn : 6 < (maOf p).length) (hb : b.egprs = true) :
    uplink p (some t) ra refRfn ta usf rfn alpha gamma none b = .fail := by
  unfold uplink
  rw [hb, if_pos rfl]
  unfold finish
  rw [if_pos]
  simp only [List.length_append, length_header, restEgprsSba, tfiUsf, alphaGamma, taIndex, length_fld,
    List.length_cons, List.length_nil]
  split <;> simp only [List.length_append, length_fld] <;> omega

theorem C50_dl_not_sent {p : Pdch} {t : Tbf} {last ta alpha gamma : Nat} (hn : 3 < (maOf p).length) (hg : t.egprs = true) :
    sndDlAss p t last ta alpha gamma = .fail := by
  unfold sndDlAss downlink finish
  rw [if_pos]
  simp only [List.length_append, length_header, restDl, alphaGamma, taIndex, length_fld, List.length_cons, List.length_nil,
    Bool.false_eq_true, if_false, hg, if_true]
  split <;> simp only [List.length_append, length_fld, List.length_cons, List.length_nil] <;> omega

/-! ## The hypotheses can be met -/

/-- A channel with one frequency and a hopping channel. -/
def pdch₁ : Pdch := { ts := 5, tsc := 7, hop := none, arfcn := 0x8000 + 871 }
def pdch₂ : Pdch := { ts := 6, tsc := 2, hop := some { maio := 3, hsn := 41, ma := [0x80, 0x13] }, arfcn := 0 }
def tbf₁ : Tbf := { tlli := 0xFFFFFFFF, tfi := 21, egprs := false, ws := 64, code := 1 }
def tbf₂ : Tbf := { tlli := 0xFFFFFFFF, tfi := 9, egprs := true, ws := 192, code := 5 }
def tbf₃ : Tbf := { tlli := 0xC0DE1234, tfi := 9, egprs := true, ws := 192 }

theorem pdchOk₁ : PdchOk pdch₁ := ⟨by decide, by decide, nofun⟩
theorem pdchOk₂ : PdchOk pdch₂ := ⟨by decide, by decide, fun h e => by cases e; decide⟩

def bitsOf : Out → List Bool
  | .msg _ m => m
  | _ => []

example : understood (bitsOf (uplink pdch₁ (some tbf₁) 0x79 4711 17 5 0 3 12 none .access0)) =
    some ⟨false, 5, 7, .arfcn 871, 0x79, 4711, 17, [], .ulTbf 21 false 5 0 none 1 true (some 3) 12 none none⟩ := by decide +kernel

example : understood (bitsOf (uplink pdch₂ none 0x73 4711 17 7 42431 0 12 none .access0)) =
    some ⟨false, 6, 2, .hop 3 41, 0x73, 4711, 17, [0x80, 0x13], .ulBlock none 12 42431⟩ := by decide +kernel

example : understood (bitsOf (uplink pdch₂ (some tbf₂) 0x2a9 4711 17 5 0 3 12 (some 14) .access2)) =
    some ⟨false, 6, 2, .hop 3 41, 0x7f, 4711, 17, [0x80, 0x13],
      .egprsUlTbf 9 9 false 5 0 none 5 false none false 192 (some 3) 12 (some 14) none⟩ := by decide +kernel

/-- A mobile takes padding for BEP_PERIOD2. -/
example : understood (bitsOf (sndDlAss pdch₁ tbf₃ 2715647 220 0 12)) =
    some ⟨true, 5, 7, .arfcn 871, 125, 21215, 28, [], .dl 0xC0DE1234 9 false none 12 false false none none none
      (some ⟨192, 0, some 9⟩)⟩ := by decide +kernel

end Verif.Ia
