import Verif.Spec.Bssgp
/-! # Reading of information elements -/

namespace Verif.Bssgp

open Gb

def Ie.Whole (e : Ie) : Prop := e.len ≤ e.at_.length

theorem Ie.val_length {e : Ie} (h : e.Whole) : e.val.length = e.len := by
  unfold Whole at h; unfold val; rw [List.length_take]; omega

theorem parse_cons (n t a : Nat) (r : List Nat) : parse (n + 1) (t :: a :: r) =
    if 128 ≤ a then
      if r.length < a - 128 then none else (parse n (r.drop (a - 128))).map (⟨t, a - 128, r⟩ :: ·)
    else
      match r with
      | [] => none
      | b :: r => if r.length < a * 256 + b then none else (parse n (r.drop (a * 256 + b))).map (⟨t, a * 256 + b, r⟩ :: ·) := by
  cases r <;> rfl

theorem parse_element {t : Nat} {v o : List Nat} (h : Element t v o) (n : Nat) (r : List Nat) :
    parse (n + 1) (o ++ r) = (parse n r).map (⟨t, v.length, v ++ r⟩ :: ·) := by
  cases h with
  | short hl =>
    rw [List.cons_append, List.cons_append, parse_cons, if_pos (by omega), show 128 + v.length - 128 = v.length by omega,
      if_neg (by rw [List.length_append]; omega), List.drop_left]
  | long hl =>
    have e : v.length / 256 * 256 + v.length % 256 = v.length := by omega
    rw [List.cons_append, List.cons_append, List.cons_append, parse_cons, if_neg (by omega)]
    dsimp only
    rw [e, if_neg (by rw [List.length_append]; omega), List.drop_left]

theorem parse_elements {es : List (Nat × List Nat)} {o : List Nat} (h : Elements es o) :
    ∀ n, o.length ≤ n → ∃ l, parse n o = some l ∧ (l.map fun e => (e.tag, e.val)) = es ∧ ∀ e ∈ l, e.Whole := by
  induction h with
  | nil => intro n _; refine ⟨[], ?_, rfl, fun e h => by simp at h⟩; cases n <;> rfl
  | @cons t v o l r he hr ih =>
    intro n hn
    have h2 : 2 ≤ o.length := by cases he <;> simp
    rw [List.length_append] at hn
    obtain ⟨m, rfl⟩ : ∃ m, n = m + 1 := ⟨n - 1, by omega⟩
    obtain ⟨l', h1, h3, h4⟩ := ih m (by omega)
    refine ⟨⟨t, v.length, v ++ r⟩ :: l', ?_, ?_, ?_⟩
    · rw [parse_element he, h1]; rfl
    · rw [List.map_cons, h3]; simp [Ie.val]
    · intro e hx
      rcases List.mem_cons.1 hx with rfl | hx
      · simp [Ie.Whole]
      · exact h4 e hx

/-- What can be parsed consists of elements. -/
theorem parse_sound : ∀ (n : Nat) (o : List Nat) (l : List Ie), (∀ x ∈ o, x < 256) → parse n o = some l →
    Elements (l.map fun e => (e.tag, e.val)) o ∧ ∀ e ∈ l, e.Whole ∧ e.len < 32768
  | n, [], l, _, h => by
    have : l = [] := by cases n <;> (simp only [parse] at h; exact (Option.some.inj h).symm)
    subst this
    exact ⟨.nil, by simp⟩
  | 0, _ :: _, l, _, h => by simp [parse] at h
  | n + 1, [_], l, _, h => by simp [parse] at h
  | n + 1, t :: a :: r, l, ho, h => by
    have ha : a < 256 := ho a (by simp)
    rw [parse_cons] at h
    split at h
    · rename_i h1
      split at h
      · cases h
      · rename_i h2
        cases h3 : parse n (r.drop (a - 128)) with
        | none => rw [h3] at h; cases h
        | some l' =>
          rw [h3] at h
          simp only [Option.map_some, Option.some.injEq] at h
          subst h
          obtain ⟨i1, i2⟩ := parse_sound n _ l' (fun x hx => ho x (by simp [List.mem_of_mem_drop hx])) h3
          have hlen : (r.take (a - 128)).length = a - 128 := by rw [List.length_take]; omega
          constructor
          · rw [List.map_cons]
            have hs := Element.short t (r.take (a - 128)) (by omega)
            rw [hlen, show 128 + (a - 128) = a by omega] at hs
            have := Elements.cons hs i1
            rw [List.cons_append, List.cons_append, List.take_append_drop] at this
            exact this
          · intro e he
            rcases List.mem_cons.1 he with rfl | he
            · exact ⟨by show a - 128 ≤ r.length; omega, by show a - 128 < 32768; omega⟩
            · exact i2 e he
    · rename_i h1
      match r, h, ho with
      | [], h, _ => cases h
      | b :: r, h, ho =>
        have hb : b < 256 := ho b (by simp)
        dsimp only at h
        split at h
        · cases h
        · rename_i h2
          cases h3 : parse n (r.drop (a * 256 + b)) with
          | none => rw [h3] at h; cases h
          | some l' =>
            rw [h3] at h
            simp only [Option.map_some, Option.some.injEq] at h
            subst h
            obtain ⟨i1, i2⟩ := parse_sound n _ l' (fun x hx => ho x (by simp [List.mem_of_mem_drop hx])) h3
            have hlen : (r.take (a * 256 + b)).length = a * 256 + b := by rw [List.length_take]; omega
            constructor
            · rw [List.map_cons]
              have hs := Element.long t (r.take (a * 256 + b)) (by omega)
              rw [hlen, show (a * 256 + b) / 256 = a by omega, show (a * 256 + b) % 256 = b by omega] at hs
              have := Elements.cons hs i1
              rw [List.cons_append, List.cons_append, List.cons_append, List.take_append_drop] at this
              exact this
            · intro e he
              rcases List.mem_cons.1 he with rfl | he
              · exact ⟨by show a * 256 + b ≤ r.length; omega, by show a * 256 + b < 32768; omega⟩
              · exact i2 e he

theorem get_value (t : Nat) : ∀ l : List Ie, (get l t).map (·.val) = value t (l.map fun e => (e.tag, e.val))
  | [] => rfl
  | e :: l => by
    unfold get
    rw [List.map_cons, value, List.find?_cons]
    by_cases h : e.tag = t
    · simp [h]
    · simp only [h, decide_false, if_false]; exact get_value t l

theorem get_none {t : Nat} {l : List Ie} {es : List (Nat × List Nat)} (h : (l.map fun e => (e.tag, e.val)) = es)
    (hv : value t es = none) : get l t = none := by
  have := get_value t l
  rw [h, hv] at this
  simpa using this

theorem get_some {t : Nat} {l : List Ie} {es : List (Nat × List Nat)} {v : List Nat}
    (h : (l.map fun e => (e.tag, e.val)) = es) (hw : ∀ e ∈ l, e.Whole) (hv : value t es = some v) :
    ∃ e, get l t = some e ∧ e.val = v ∧ e.len = v.length ∧ e.Whole := by
  have := get_value t l
  rw [h, hv] at this
  obtain ⟨e, h1, h2⟩ := Option.map_eq_some_iff.1 this
  have hm : e ∈ l := List.mem_of_find?_eq_some h1
  exact ⟨e, h1, h2, by rw [← h2, Ie.val_length (hw e hm)], hw e hm⟩

theorem read_whole {e : Ie} (h : e.Whole) : e.read e.len = some e.val := by
  exact if_pos h

theorem be_32 (v : Nat) (h : v < 2 ^ 32) : be (octets32 v) = v := by
  simp only [be, octets32, List.foldl_cons, List.foldl_nil]; omega

theorem be_16 (v : Nat) (h : v < 2 ^ 16) : be (octets16 v) = v := by
  simp only [be, octets16, List.foldl_cons, List.foldl_nil]; omega

end Verif.Bssgp
