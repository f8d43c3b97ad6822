import Verif.Spec.Bvc
/-!
Towards C65: exchanges between PCU and SGSN come to an end.
-/

namespace Verif.Bvc

def sumW {α : Type} (W : α → Nat) (l : List α) : Nat := (l.map W).sum

@[simp] theorem sumW_nil {α : Type} (W : α → Nat) : sumW W [] = 0 := rfl
@[simp] theorem sumW_cons {α : Type} (W : α → Nat) (a : α) (l : List α) : sumW W (a :: l) = W a + sumW W l := by simp [sumW]
@[simp] theorem sumW_append {α : Type} (W : α → Nat) (l r : List α) : sumW W (l ++ r) = sumW W l + sumW W r := by simp [sumW]

/-! Weights. What a message causes within a phase weighs less than the message. -/

def isReset : Down → Nat | .reset _ _ => 1 | _ => 0
def isZ : Up → Nat | .reset true => 1 | _ => 0
def isR : Up → Nat | .reset false => 1 | _ => 0
def isAck : Down → Nat | .resetAck _ => 1 | _ => 0
def isSU : Down → Nat | .status .unknown true => 1 | _ => 0

/-- Before the signalling BVC is reset. -/
def u0 : Up → Nat | .reset _ => 3 | _ => 5
def d0 : Down → Nat | .resetAck _ => 2 | .flowAck => 1 | .reset _ _ => 0 | _ => 4

/-- While the BVC is unknown to the SGSN. -/
def u1 : Up → Nat | .reset _ => 3 | _ => 5
def d1 : Down → Nat | .status .unknown true => 4 | .reset _ _ => 0 | _ => 6

/-- Until its reset is acknowledged. -/
def u2 : Up → Nat | .reset _ => 3 | _ => 5
def d2 : Down → Nat | .resetAck _ => 2 | .reset _ _ => 0 | _ => 4

/-- While it is blocked. -/
def u3 : Up → Nat | .unblock => 2 | .reset _ => 0 | _ => 4
def d3 : Down → Nat | .status .blocked true => 3 | .unblockAck => 5 | .flowAck => 1 | .status _ _ => 1 | _ => 0

/-- While it is open. -/
def u4 : Up → Nat | .unblock => 5 | .flow => 3 | .data => 1 | .reset _ => 0
def d4 : Down → Nat | .status .blocked true => 6 | .unblockAck => 4 | .flowAck => 2 | .status _ _ => 1 | _ => 0

abbrev Tup := Nat × Nat × Nat × Nat × Nat × Nat × Nat × Nat × Nat × Nat

def measure (w : World) : Tup :=
  let c0 := sumW isReset w.down
  if w.pcu.sig = false then (c0, 1, sumW u0 w.up + sumW d0 w.down, 0, 0, 0, 0, 0, 0, 0)
  else
    let nZ := sumW isZ w.up
    if w.view = .unknown then (c0, 0, nZ, 1, sumW u1 w.up + sumW d1 w.down, 0, 0, 0, 0, 0)
    else
      let nSU := sumW isSU w.down
      if w.pcu.reset = false then (c0, 0, nZ, 0, nSU, 1, sumW u2 w.up + sumW d2 w.down, 0, 0, 0)
      else
        let nR := sumW isR w.up
        let nA := sumW isAck w.down
        if w.view = .blocked then (c0, 0, nZ, 0, nSU, 0, nR, nA, 1, sumW u3 w.up + sumW d3 w.down)
        else (c0, 0, nZ, 0, nSU, 0, nR, nA, 0, sumW u4 w.up + sumW d4 w.down)

def lexLt (a b : Tup) : Prop := Prod.Lex (· < ·) (Prod.Lex (· < ·) (Prod.Lex (· < ·) (Prod.Lex (· < ·) (Prod.Lex (· < ·)
  (Prod.Lex (· < ·) (Prod.Lex (· < ·) (Prod.Lex (· < ·) (Prod.Lex (· < ·) (· < ·))))))))) a b

theorem lexLt_wf : WellFounded lexLt := by
  have n := Nat.lt_wfRel.wf
  have h (β : Type) (r : β → β → Prop) (hr : WellFounded r) : WellFounded (Prod.Lex (α := Nat) (· < ·) r) :=
    (Prod.lex ⟨_, n⟩ ⟨_, hr⟩).wf
  exact h _ _ (h _ _ (h _ _ (h _ _ (h _ _ (h _ _ (h _ _ (h _ _ (h _ _ n))))))))

theorem lexLt_of {a b : Tup} (h : a.1 < b.1 ∨ a.1 = b.1 ∧ (a.2.1 < b.2.1 ∨ a.2.1 = b.2.1 ∧ (a.2.2.1 < b.2.2.1 ∨ a.2.2.1 = b.2.2.1 ∧
    (a.2.2.2.1 < b.2.2.2.1 ∨ a.2.2.2.1 = b.2.2.2.1 ∧ (a.2.2.2.2.1 < b.2.2.2.2.1 ∨ a.2.2.2.2.1 = b.2.2.2.2.1 ∧
    (a.2.2.2.2.2.1 < b.2.2.2.2.2.1 ∨ a.2.2.2.2.2.1 = b.2.2.2.2.2.1 ∧ (a.2.2.2.2.2.2.1 < b.2.2.2.2.2.2.1 ∨ a.2.2.2.2.2.2.1 = b.2.2.2.2.2.2.1 ∧
    (a.2.2.2.2.2.2.2.1 < b.2.2.2.2.2.2.2.1 ∨ a.2.2.2.2.2.2.2.1 = b.2.2.2.2.2.2.2.1 ∧ (a.2.2.2.2.2.2.2.2.1 < b.2.2.2.2.2.2.2.2.1 ∨
    a.2.2.2.2.2.2.2.2.1 = b.2.2.2.2.2.2.2.2.1 ∧ a.2.2.2.2.2.2.2.2.2 < b.2.2.2.2.2.2.2.2.2))))))))) : lexLt a b := by
  obtain ⟨a1, a2, a3, a4, a5, a6, a7, a8, a9, a10⟩ := a
  obtain ⟨b1, b2, b3, b4, b5, b6, b7, b8, b9, b10⟩ := b
  simp only at h
  unfold lexLt
  simp only [Prod.lex_def]
  exact h

theorem up_step (p : Pcu) (v : View) (l r : List Up) (d : List Down) (m : Up) (a b c a' b' c' : Nat) :
    lexLt (measure ⟨p, (v.rx m).1, l ++ r, d ++ (v.rx m).2, a', b', c'⟩) (measure ⟨p, v, l ++ m :: r, d, a, b, c⟩) := by
  obtain ⟨n, sg, rs, ub, t⟩ := p
  apply lexLt_of
  rcases m with (_ | _) | _ | _ | _ <;> cases sg <;> cases rs <;> cases v <;>
    simp [measure, View.rx, isReset, isZ, isR, isAck, isSU, u0, u1, u2, u3, u4, d0, d1, d2, d3, d4] <;> omega

theorem down_step (p : Pcu) (v : View) (u : List Up) (l r : List Down) (m : Down) (a b c a' b' c' : Nat) :
    lexLt (measure ⟨(p.rx m).1, v, u ++ (p.rx m).2, l ++ r, a', b', c'⟩) (measure ⟨p, v, u, l ++ m :: r, a, b, c⟩) := by
  obtain ⟨n, sg, rs, ub, t⟩ := p
  apply lexLt_of
  rcases m with (_ | _) | _ | _ | ⟨(_ | _ | _), (_ | _)⟩ | ⟨(_ | _), (_ | _)⟩ <;> cases sg <;> cases rs <;> cases ub <;> cases v <;>
    simp [measure, Pcu.rx, Pcu.timeout, isReset, isZ, isR, isAck, isSU, u0, u1, u2, u3, u4, d0, d1, d2, d3, d4] <;> omega

theorem deliver_wf : WellFounded fun v w => Deliver w v := by
  refine Subrelation.wf ?_ (InvImage.wf measure lexLt_wf)
  intro v w h
  cases h with
  | up l r m h =>
    obtain ⟨p, vw, u, d, x, y, z⟩ := w
    dsimp only at h
    subst h
    exact up_step ..
  | down l r m h =>
    obtain ⟨p, vw, u, d, x, y, z⟩ := w
    dsimp only at h
    subst h
    exact down_step ..

end Verif.Bvc
