import Verif.Spec.PchTimer
/-!
# C37: subscribers being paged

`Hist t3113 q l now`: the records `q` of a cell after the events `l`. A mobile that is heard is
assumed to be identified (`Identifies`): `C37_foreign_tlli` shows a mobile that is not.
-/

namespace Verif.Pch

/-- What holds in every history. -/
structure Inv (t3113 : Nat) (q : List Rec) (l : List Event) : Prop where
  once : q.Pairwise fun a b => a.imsi ≠ b.imsi
  paged : ∀ i, (∃ r ∈ q, r.imsi = i) ↔ Paged l i
  since : ∀ r ∈ q, ∃ t, Since l r.imsi t ∧ r.due = t + t3113
  known : ∀ r ∈ q, r.imsi ≠ ""

theorem nodup_of_once {q : List Rec} (h : q.Pairwise fun a b => a.imsi ≠ b.imsi) : q.Nodup :=
  h.imp fun h e => h (congrArg _ e)

theorem eq_of_imsi {q : List Rec} (h : q.Pairwise fun a b => a.imsi ≠ b.imsi) {a b : Rec} (ha : a ∈ q) (hb : b ∈ q)
    (e : a.imsi = b.imsi) : a = b := by
  induction q with
  | nil => cases ha
  | cons x q ih =>
    obtain ⟨h1, h2⟩ := List.pairwise_cons.1 h
    rcases List.mem_cons.1 ha with ha' | ha' <;> rcases List.mem_cons.1 hb with hb' | hb'
    · rw [ha', hb']
    · exact absurd (ha' ▸ e) (h1 b hb')
    · exact absurd (hb' ▸ e.symm) (h1 a ha')
    · exact ih h2 ha' hb'

theorem mem_remove {q : List Rec} (h : q.Pairwise fun a b => a.imsi ≠ b.imsi) {r : Rec} (hr : r ∈ q) (x : Rec) :
    x ∈ remove q r ↔ x ∈ q ∧ x.imsi ≠ r.imsi := by
  unfold remove
  rw [(nodup_of_once h).mem_erase_iff]
  constructor
  · rintro ⟨h1, h2⟩
    exact ⟨h2, fun e => h1 (eq_of_imsi h h2 hr e)⟩
  · rintro ⟨h1, h2⟩
    exact ⟨fun e => h2 (congrArg _ e), h1⟩

theorem once_remove {q : List Rec} (h : q.Pairwise fun a b => a.imsi ≠ b.imsi) (r : Rec) :
    (remove q r).Pairwise fun a b => a.imsi ≠ b.imsi := h.sublist List.erase_sublist

theorem foldl_remove (l : List Rec) : ∀ q : List Rec, (∀ x ∈ q, x ∈ l) → q.Nodup → l.foldl remove q = [] := by
  induction l with
  | nil =>
    intro q h _
    exact List.eq_nil_iff_forall_not_mem.2 fun x hx => nomatch h x hx
  | cons a l ih =>
    intro q h hn
    rw [List.foldl_cons]
    refine ih _ (fun x hx => ?_) (hn.sublist List.erase_sublist)
    obtain ⟨h1, h2⟩ := hn.mem_erase_iff.1 hx
    rcases List.mem_cons.1 (h x h2) with rfl | h3
    · exact absurd rfl h1
    · exact h3

/-- What `stop` does: it takes out one record, found by the P-TMSI or else by the IMSI, or nothing. -/
theorem stop_cases (q : List Rec) (tlli : Nat) (imsi : String) :
    (∃ r ∈ q, stop q tlli imsi = remove q r ∧ ((r.ptmsi = tlli ∧ tlli ≠ noTmsi) ∨ (r.imsi = imsi ∧ imsi ≠ ""))) ∨
    (stop q tlli imsi = q ∧ (∀ r ∈ q, r.ptmsi = tlli → tlli = noTmsi) ∧ (∀ r ∈ q, r.imsi = imsi → imsi = "")) := by
  have hp : (∃ r ∈ q, (if tlli ≠ noTmsi then byPtmsi q tlli else none) = some r ∧ r.ptmsi = tlli ∧ tlli ≠ noTmsi) ∨
      ((if tlli ≠ noTmsi then byPtmsi q tlli else none) = none ∧ ∀ r ∈ q, r.ptmsi = tlli → tlli = noTmsi) := by
    by_cases ht : tlli = noTmsi
    · exact .inr ⟨if_neg (by simp [ht]), fun _ _ _ => ht⟩
    · rw [if_pos ht]
      unfold byPtmsi
      cases hf : q.find? (fun r => r.ptmsi ≠ noTmsi && r.ptmsi = tlli) with
      | none =>
        refine .inr ⟨rfl, fun r hr e => ?_⟩
        have := List.find?_eq_none.1 hf r hr
        simp [e, ht] at this
      | some r =>
        have h1 := List.find?_some hf
        simp only [Bool.and_eq_true, decide_eq_true_eq] at h1
        exact .inl ⟨r, List.mem_of_find?_eq_some hf, rfl, h1.2, ht⟩
  have hi : (∃ r ∈ q, (if imsi ≠ "" then byImsi q imsi else none) = some r ∧ r.imsi = imsi ∧ imsi ≠ "") ∨
      ((if imsi ≠ "" then byImsi q imsi else none) = none ∧ ∀ r ∈ q, r.imsi = imsi → imsi = "") := by
    by_cases ht : imsi = ""
    · exact .inr ⟨if_neg (by simp [ht]), fun _ _ _ => ht⟩
    · rw [if_pos ht]
      unfold byImsi
      cases hf : q.find? (fun r => r.imsi = imsi) with
      | none =>
        refine .inr ⟨rfl, fun r hr e => ?_⟩
        have := List.find?_eq_none.1 hf r hr
        simp [e] at this
      | some r => exact .inl ⟨r, List.mem_of_find?_eq_some hf, rfl, by simpa using List.find?_some hf, ht⟩
  unfold stop
  rcases hp with ⟨r, hr, e, h⟩ | ⟨e, h⟩
  · rw [e]; exact .inl ⟨r, hr, rfl, .inl h⟩
  · rw [e]
    dsimp only
    rcases hi with ⟨r, hr, e, h'⟩ | ⟨e, h'⟩
    · rw [e]; exact .inl ⟨r, hr, rfl, .inr h'⟩
    · rw [e]; exact .inr ⟨rfl, h, h'⟩

/-- C37, stopping: a mobile takes out its own record and nothing else, if it can be identified. -/
theorem C37_stop {q : List Rec} (h : q.Pairwise fun a b => a.imsi ≠ b.imsi) {tlli : Nat} {imsi i : String} (hi : i ≠ "")
    (hid : Identifies q tlli imsi i) (x : Rec) : x ∈ stop q tlli imsi ↔ x ∈ q ∧ x.imsi ≠ i := by
  obtain ⟨h1, h2⟩ := hid
  rcases stop_cases q tlli imsi with ⟨r, hr, e, hc⟩ | ⟨e, ht, hs⟩
  · have : r.imsi = i := by
      rcases hc with ⟨e1, e2⟩ | ⟨e1, e2⟩
      · exact h1 r hr e1 e2
      · rcases h2 with rfl | ⟨h2, -⟩
        · exact e1
        · exact absurd h2 e2
    rw [e, mem_remove h hr, this]
  · rw [e]
    refine ⟨fun hx => ⟨hx, fun hxi => ?_⟩, And.left⟩
    rcases h2 with rfl | ⟨-, h2⟩
    · exact hi (hs x hx hxi)
    · exact (h2 x hx hxi).2 (ht x hx (h2 x hx hxi).1)

theorem stop_once {q : List Rec} (h : q.Pairwise fun a b => a.imsi ≠ b.imsi) (tlli : Nat) (imsi : String) :
    (stop q tlli imsi).Pairwise fun a b => a.imsi ≠ b.imsi := by
  rcases stop_cases q tlli imsi with ⟨r, -, e, -⟩ | ⟨e, -⟩
  · rw [e]; exact once_remove h r
  · rw [e]; exact h

theorem page_cases (q : List Rec) (now t : Nat) (tmsi : Option Nat) (i : String) :
    ((∃ r ∈ q, r.imsi = i) ∧ page q now t tmsi i true = q) ∨
    ((∀ r ∈ q, r.imsi ≠ i) ∧ page q now t tmsi i true = q ++ [⟨i, tmsi.getD noTmsi, now + t⟩]) := by
  unfold page byImsi
  cases hf : q.find? (fun r => r.imsi = i) with
  | some r => exact .inl ⟨⟨r, List.mem_of_find?_eq_some hf, by simpa using List.find?_some hf⟩, rfl⟩
  | none => exact .inr ⟨fun r hr e => List.find?_eq_none.1 hf r hr (by simpa using e), rfl⟩

theorem page_unsent (q : List Rec) (now t : Nat) (tmsi : Option Nat) (i : String) : page q now t tmsi i false = q := by
  unfold page; split <;> rfl

theorem histInv {t3113 : Nat} {q : List Rec} {l : List Event} {now : Nat} (h : Hist t3113 q l now) : Inv t3113 q l := by
  induction h with
  | init now => exact ⟨.nil, fun i => ⟨fun ⟨_, h, _⟩ => (nomatch h), False.elim⟩, nofun, nofun⟩
  | wait d _ ih => exact ih
  | unsent tmsi i _ ih => rw [page_unsent]; exact ih
  | @page q l now tmsi i hi _ ih =>
    rcases page_cases q now t3113 tmsi i with ⟨hex, e⟩ | ⟨hno, e⟩
    · rw [e]
      refine ⟨ih.once, fun j => ?_, fun r hr => ?_, ih.known⟩
      · rw [ih.paged j]
        refine ⟨.inr, fun h => ?_⟩
        rcases h with h | h
        · rw [← h]; exact (ih.paged i).1 hex
        · exact h
      · obtain ⟨t, h1, h2⟩ := ih.since r hr
        refine ⟨t, .inr ⟨?_, h1⟩, h2⟩
        exact .inr ((ih.paged _).1 ⟨r, hr, rfl⟩)
    · rw [e]
      refine ⟨?_, fun j => ?_, fun r hr => ?_, fun r hr => ?_⟩
      · rw [List.pairwise_append]
        exact ⟨ih.once, List.pairwise_singleton _ _, fun a ha b hb => by rw [List.mem_singleton.1 hb]; exact hno a ha⟩
      · constructor
        · rintro ⟨r, hr, rfl⟩
          rcases List.mem_append.1 hr with hr | hr
          · exact .inr ((ih.paged _).1 ⟨r, hr, rfl⟩)
          · rw [List.mem_singleton.1 hr]; exact .inl rfl
        · rintro (rfl | hp)
          · exact ⟨_, List.mem_append_right _ (List.mem_singleton.2 rfl), rfl⟩
          · obtain ⟨r, hr, hri⟩ := (ih.paged j).2 hp
            exact ⟨r, List.mem_append_left _ hr, hri⟩
      · rcases List.mem_append.1 hr with hr | hr
        · obtain ⟨t, h1, h2⟩ := ih.since r hr
          exact ⟨t, .inr ⟨.inl fun e => hno r hr e.symm, h1⟩, h2⟩
        · rw [List.mem_singleton.1 hr]
          refine ⟨now, .inl ⟨rfl, fun hp => ?_, rfl⟩, rfl⟩
          obtain ⟨r, hr, hri⟩ := (ih.paged i).2 hp
          exact hno r hr hri
      · rcases List.mem_append.1 hr with hr | hr
        · exact ih.known r hr
        · rw [List.mem_singleton.1 hr]; exact hi
  | @heard q l now tlli imsi i hi hid _ ih =>
    have hm := C37_stop ih.once hi hid
    refine ⟨stop_once ih.once tlli imsi, fun j => ?_, fun r hr => ?_, fun r hr => ih.known r ((hm r).1 hr).1⟩
    · constructor
      · rintro ⟨r, hr, rfl⟩
        obtain ⟨h1, h2⟩ := (hm r).1 hr
        exact ⟨fun e => h2 e.symm, (ih.paged _).1 ⟨r, h1, rfl⟩⟩
      · rintro ⟨h1, h2⟩
        obtain ⟨r, hr, rfl⟩ := (ih.paged j).2 h2
        exact ⟨r, (hm r).2 ⟨hr, fun e => h1 e.symm⟩, rfl⟩
    · obtain ⟨h1, h2⟩ := (hm r).1 hr
      obtain ⟨t, h3, h4⟩ := ih.since r h1
      exact ⟨t, ⟨fun e => h2 e.symm, h3⟩, h4⟩
  | @timeout q l now r hr hd _ ih =>
    have hm := mem_remove ih.once hr
    refine ⟨once_remove ih.once r, fun j => ?_, fun x hx => ?_, fun x hx => ih.known x ((hm x).1 hx).1⟩
    · constructor
      · rintro ⟨x, hx, rfl⟩
        obtain ⟨h1, h2⟩ := (hm x).1 hx
        exact ⟨fun e => h2 e.symm, (ih.paged _).1 ⟨x, h1, rfl⟩⟩
      · rintro ⟨h1, h2⟩
        obtain ⟨x, hx, rfl⟩ := (ih.paged j).2 h2
        exact ⟨x, (hm x).2 ⟨hx, fun e => h1 e.symm⟩, rfl⟩
    · obtain ⟨h1, h2⟩ := (hm x).1 hx
      obtain ⟨t, h3, h4⟩ := ih.since x h1
      exact ⟨t, ⟨fun e => h2 e.symm, h3⟩, h4⟩
  | stopAll _ ih =>
    have : Pch.stopAll _ = [] := foldl_remove _ _ (fun _ h => h) (nodup_of_once ih.once)
    rw [this]
    exact ⟨.nil, fun i => ⟨fun ⟨_, h, _⟩ => (nomatch h), False.elim⟩, nofun, nofun⟩

/-- C37: a subscriber has a record exactly while it is being paged. Partial: mobiles that are heard
are identified. -/
theorem C37_paged_partial {t3113 : Nat} {q : List Rec} {l : List Event} {now : Nat} (h : Hist t3113 q l now) (i : String) :
    (byImsi q i).isSome = true ↔ Paged l i := by
  rw [← (histInv h).paged i]
  unfold byImsi
  rw [List.find?_isSome]
  simp

/-- C37: never more than one record per subscriber. -/
theorem C37_once {t3113 : Nat} {q : List Rec} {l : List Event} {now : Nat} (h : Hist t3113 q l now) : (q.map (·.imsi)).Nodup := by
  rw [List.Nodup, List.pairwise_map]
  exact (histInv h).once

/-- C37: the timer of a record runs from the request that started it; later requests do not prolong
it. -/
theorem C37_due {t3113 : Nat} {q : List Rec} {l : List Event} {now : Nat} (h : Hist t3113 q l now) {r : Rec} (hr : r ∈ q) :
    ∃ t, Since l r.imsi t ∧ r.due = t + t3113 := (histInv h).since r hr

/-- C37, stopping by whatever mobile: at most one record goes, the others stay in order; the record
that goes was paged by a P-TMSI equal to the TLLI or has the IMSI of the mobile. -/
theorem C37_stop_one (q : List Rec) (tlli : Nat) (imsi : String) :
    stop q tlli imsi = q ∨ ∃ a r b, q = a ++ r :: b ∧ stop q tlli imsi = a ++ b ∧
      ((r.ptmsi = tlli ∧ tlli ≠ noTmsi) ∨ (r.imsi = imsi ∧ imsi ≠ "")) := by
  rcases stop_cases q tlli imsi with ⟨r, hr, e, hc⟩ | ⟨e, -⟩
  · obtain ⟨a, b, -, h2, h3⟩ := List.exists_erase_eq hr
    exact .inr ⟨a, r, b, h2, e.trans h3, hc⟩
  · exact .inl e

/-- C37 fails for a mobile that answers with a foreign TLLI and whose IMSI is not known: paged by
P-TMSI `C0001234`, it answers with TLLI `80001234` and counts as being paged until T3113 expires. -/
theorem C37_foreign_tlli : ∃ q l now, Hist 10 q l now ∧ stop q 0x80001234 "" = q ∧ (byImsi q "262420000000001").isSome = true :=
  ⟨_, _, 0, .page (some 0xC0001234) "262420000000001" (by decide) (.init 0), by decide +kernel, by decide +kernel⟩

/-! Instance: two subscribers are paged, one twice, the other answers. -/
def q0 : List Rec := page (page (page [] 0 10 (some 0xC0000001) "1" true) 3 10 none "2" true) 3 10 (some 0xC0000001) "1" true
theorem h0 : Hist 10 q0 [.request "1" 3, .request "2" 3, .request "1" 0] 3 :=
  .page _ _ (by decide) (.page _ _ (by decide) (.wait 3 (.page _ _ (by decide) (.init 0))))
example : q0 = [⟨"1", 0xC0000001, 10⟩, ⟨"2", noTmsi, 13⟩] := by decide +kernel
example : Hist 10 (stop q0 0xC0000001 "") [.heard "1", .request "1" 3, .request "2" 3, .request "1" 0] 3 :=
  .heard _ _ _ (by decide) (by unfold Identifies; decide +kernel) h0

end Verif.Pch
