import Verif.Model.Segment
/-!
C09: length-indicator parsing stays inside the received block.

`mem` is memory from the first octet of the block on, with arbitrary contents, so the
theorems cover every content a mobile can send; `(fromUl …).reads` lists every index that
decoding reads.
-/
namespace Verif.Seg

/-- Pieces lying one after the other from `start` on, all within the first `len` octets. -/
def Tiles (len : Nat) : Nat → List Piece → Prop
  | _, [] => True
  | start, p :: ps => p.offset = start ∧ p.offset + p.length ≤ len ∧ Tiles len (p.offset + p.length) ps

theorem place_tiles (len : Nat) : ∀ (ch : List Ext) (offs : Nat) (ps : List Piece),
    place len offs ch = some ps → Tiles len offs ps
  | [], offs, ps, h => by simp only [place, Option.some.injEq] at h; subst h; trivial
  | (l, c) :: rest, offs, ps, h => by
    unfold place at h
    split at h
    · simp only [Option.some.injEq] at h; subst h; trivial
    · dsimp only at h
      generalize (if l = toEnd then len - offs else l) = l' at h
      split at h
      · exact absurd h (by simp)
      · rename_i hlen
        rw [Option.map_eq_some_iff] at h
        obtain ⟨qs, h1, rfl⟩ := h
        have := place_tiles len rest _ qs h1
        refine ⟨rfl, ?_, this⟩
        dsimp only; omega

/-- Reads and the final position of the EGPRS parser with an array of `c` entries. -/
theorem parseEgprs_bounds (mem : Nat → Nat) (len : Nat) (last : Bool) (c : Nat) (hc : c < len) :
    ∀ (k offs : Nat) (acc : List Ext) (rd : List Nat),
      offs = acc.length → acc.length ≤ c → (∀ i ∈ rd, i < len) →
      (∀ i ∈ (parseEgprs mem len last (some c) k offs acc rd).reads, i < len) ∧
      (∀ ch o r, parseEgprs mem len last (some c) k offs acc rd = .ok ch o r → o ≤ len)
  | 0, offs, acc, rd, ho, ha, hr => by
    unfold parseEgprs
    exact ⟨hr, by simp⟩
  | k + 1, offs, acc, rd, ho, ha, hr => by
    have hr' : ∀ i ∈ rd ++ [offs], i < len := by
      intro i hi
      simp only [List.mem_append, List.mem_singleton] at hi
      rcases hi with hi | rfl
      · exact hr i hi
      · omega
    have hok : ∀ (ch : List Ext), (∀ i ∈ (Parsed.ok ch (offs + 1) (rd ++ [offs])).reads, i < len) ∧
        ∀ ch' o r, Parsed.ok ch (offs + 1) (rd ++ [offs]) = .ok ch' o r → o ≤ len := by
      intro ch
      refine ⟨hr', ?_⟩
      intro ch' o r h
      simp only [Parsed.ok.injEq] at h
      omega
    have herr : (∀ i ∈ (Parsed.err (rd ++ [offs])).reads, i < len) ∧
        ∀ ch' o r, Parsed.err (rd ++ [offs]) = .ok ch' o r → o ≤ len := ⟨hr', by simp⟩
    unfold parseEgprs
    split
    · exact ⟨hr, by simp⟩
    · dsimp only
      split
      · exact herr
      · rename_i hne
        split
        · exact hok _
        · split
          · exact herr
          · split
            · split
              · exact herr
              · exact hok _
            · exact parseEgprs_bounds mem len last c hc k (offs + 1) _ _ (by simp [ho])
                (by simp; omega) hr'

theorem parseGprs_bounds (mem : Nat → Nat) (len : Nat) (last : Bool) (c : Nat) (hc : c < len) :
    ∀ (k offs : Nat) (acc : List Ext) (rd : List Nat),
      offs = acc.length → acc.length ≤ c → (∀ i ∈ rd, i < len) →
      (∀ i ∈ (parseGprs mem len last (some c) k offs acc rd).reads, i < len) ∧
      (∀ ch o r, parseGprs mem len last (some c) k offs acc rd = .ok ch o r → o ≤ len)
  | 0, offs, acc, rd, ho, ha, hr => by
    unfold parseGprs
    exact ⟨hr, by simp⟩
  | k + 1, offs, acc, rd, ho, ha, hr => by
    have hr' : ∀ i ∈ rd ++ [offs], i < len := by
      intro i hi
      simp only [List.mem_append, List.mem_singleton] at hi
      rcases hi with hi | rfl
      · exact hr i hi
      · omega
    have hok : ∀ (ch : List Ext), (∀ i ∈ (Parsed.ok ch (offs + 1) (rd ++ [offs])).reads, i < len) ∧
        ∀ ch' o r, Parsed.ok ch (offs + 1) (rd ++ [offs]) = .ok ch' o r → o ≤ len := by
      intro ch
      refine ⟨hr', ?_⟩
      intro ch' o r h
      simp only [Parsed.ok.injEq] at h
      omega
    have herr : (∀ i ∈ (Parsed.err (rd ++ [offs])).reads, i < len) ∧
        ∀ ch' o r, Parsed.err (rd ++ [offs]) = .ok ch' o r → o ≤ len := ⟨hr', by simp⟩
    unfold parseGprs
    split
    · exact ⟨hr, by simp⟩
    · dsimp only
      repeat' split
      all_goals first
        | exact hok _
        | exact herr
        | exact parseGprs_bounds mem len last c hc k (offs + 1) _ _ (by simp [ho])
                (by simp; omega) hr'

/-- Reassembly of an uplink block, for every block content and every legal block length,
reads only octets of the block; if it yields pieces of LLC frames, they lie one after the
other inside the block. -/
theorem C09_reassembly_stays_inside (edge : Bool) (mem : Nat → Nat) (len : Nat) (hl : 20 ≤ len)
    (h : Hdr) :
    (∀ i ∈ (fromUl edge mem len h (some 16)).reads, i < len) ∧
    (∀ ps, (fromUl edge mem len h (some 16)).pieces = some ps → ∃ start, Tiles len start ps) := by
  have key : ∀ p : Parsed, (∀ i ∈ p.reads, i < len) → (∀ ch o r, p = .ok ch o r → o ≤ len) →
      ∀ d : Decoded, d = (match p with
        | .err rd => ⟨none, rd⟩
        | .ok ch offs rd =>
          if h.ti = true ∧ offs + 4 > len then ⟨none, rd⟩
          else
            let rd := if h.ti then rd ++ [offs, offs + 1, offs + 2, offs + 3] else rd
            let offs := if h.ti then offs + 4 else offs
            if h.pi then ⟨none, rd⟩ else ⟨place len offs ch, rd⟩ : Decoded) →
      (∀ i ∈ d.reads, i < len) ∧ (∀ ps, d.pieces = some ps → ∃ start, Tiles len start ps) := by
    intro p h1 h2 d hd
    cases p with
    | err rd => subst hd; exact ⟨h1, by simp⟩
    | ok ch offs rd =>
      have h3 := h2 ch offs rd rfl
      have h1 : ∀ i ∈ rd, i < len := h1
      dsimp only at hd
      split at hd
      · subst hd; exact ⟨h1, by simp⟩
      · rename_i hti
        have hrd : ∀ i ∈ (if h.ti = true then rd ++ [offs, offs + 1, offs + 2, offs + 3] else rd),
            i < len := by
          intro i hi
          split at hi
          · rename_i ht
            have : offs + 4 ≤ len := by
              by_cases hx : offs + 4 > len
              · exact absurd ⟨ht, hx⟩ hti
              · omega
            simp only [List.mem_append, List.mem_cons, List.not_mem_nil, or_false] at hi
            rcases hi with hi | hi | hi | hi | hi
            · exact h1 i hi
            all_goals omega
          · exact h1 i hi
        split at hd
        · subst hd; exact ⟨hrd, by simp⟩
        · subst hd
          refine ⟨hrd, ?_⟩
          intro ps hps
          exact ⟨_, place_tiles len _ _ _ hps⟩
  unfold fromUl
  dsimp only
  by_cases he : h.e ≠ 0
  · simp only [if_pos he]
    exact key (.ok [(toEnd, decide (h.cv = 0))] 0 []) (by simp [Parsed.reads]) (by
      intro ch o r hh; simp only [Parsed.ok.injEq] at hh; omega) _ rfl
  · simp only [if_neg he]
    cases edge
    · simp only [Bool.false_eq_true, if_false]
      have hb := parseGprs_bounds mem len (decide (h.cv = 0)) 16 (by omega) (len + 2) 0 [] [] rfl
        (by simp) (by simp)
      exact key _ hb.1 hb.2 _ rfl
    · simp only [if_true]
      have hb := parseEgprs_bounds mem len (decide (h.cv = 0)) 16 (by omega) (len + 2) 0 [] [] rfl
        (by simp) (by simp)
      exact key _ hb.1 hb.2 _ rfl

/-! ## The call that only looks for the TLLI (tbf_ul.cpp:342) -/

theorem parse_null_bounds (mem : Nat → Nat) (len : Nat) (last : Bool) :
    ∀ (k offs : Nat) (rd : List Nat), (∀ i ∈ rd, i ≤ len) →
      (∀ i ∈ (parseEgprs mem len last none k offs [] rd).reads, i ≤ len) ∧
      (∀ i ∈ (parseGprs mem len last none k offs [] rd).reads, i ≤ len)
  | 0, offs, rd, hr => by unfold parseEgprs parseGprs; exact ⟨hr, hr⟩
  | k + 1, offs, rd, hr => by
    by_cases ho : offs > len
    · unfold parseEgprs parseGprs
      rw [if_pos ho, if_pos ho]; exact ⟨hr, hr⟩
    · have hr' : ∀ i ∈ rd ++ [offs], i ≤ len := by
        intro i hi
        simp only [List.mem_append, List.mem_singleton] at hi
        rcases hi with hi | rfl
        · exact hr i hi
        · omega
      have ih := parse_null_bounds mem len last k (offs + 1) (rd ++ [offs]) hr'
      unfold parseEgprs parseGprs
      rw [if_neg ho, if_neg ho]
      dsimp only
      constructor
      · split
        · exact ih.1
        · exact hr'
      · repeat' split
        all_goals first
          | exact hr'
          | exact ih.2

/-- The call that only looks for the TLLI never reads further than one octet past the
block. Missing from the full property: it can read that one octet, see `C09_violated`. -/
theorem C09_tlli_call_partial (edge : Bool) (mem : Nat → Nat) (len : Nat) (h : Hdr) :
    ∀ i ∈ (fromUl edge mem len h none).reads, i ≤ len := by
  have hb := parse_null_bounds mem len (decide (h.cv = 0)) (len + 2) 0 [] (by simp)
  have key : ∀ p : Parsed, (∀ i ∈ p.reads, i ≤ len) →
      ∀ i ∈ (match p with
        | .err rd => ⟨none, rd⟩
        | .ok _ offs rd =>
          if h.ti = true ∧ offs + 4 > len then ⟨none, rd⟩
          else
            let rd := if h.ti then rd ++ [offs, offs + 1, offs + 2, offs + 3] else rd
            if h.pi then ⟨none, rd⟩ else ⟨some [], rd⟩ : Decoded).reads, i ≤ len := by
    intro p hp
    cases p with
    | err rd => exact hp
    | ok ch offs rd =>
      have hp : ∀ i ∈ rd, i ≤ len := hp
      dsimp only
      split
      · exact hp
      · rename_i hti
        have hrd : ∀ i ∈ (if h.ti = true then rd ++ [offs, offs + 1, offs + 2, offs + 3] else rd),
            i ≤ len := by
          intro i hi
          split at hi
          · rename_i ht
            have : offs + 4 ≤ len := by
              by_cases hx : offs + 4 > len
              · exact absurd ⟨ht, hx⟩ hti
              · omega
            simp only [List.mem_append, List.mem_cons, List.not_mem_nil, or_false] at hi
            rcases hi with hi | hi | hi | hi | hi
            · exact hp i hi
            all_goals omega
          · exact hp i hi
        split
        · exact hrd
        · exact hrd
  unfold fromUl
  dsimp only
  by_cases he : h.e ≠ 0
  · simp only [if_pos he]
    exact key (.ok [] 0 []) (by simp [Parsed.reads])
  · simp only [if_neg he]
    cases edge
    · simp only [Bool.false_eq_true, if_false]; exact key _ hb.2
    · simp only [if_true]; exact key _ hb.1

/-- The code violates the full property: for each block length there is a block content
(all length octets saying "another one follows") for which looking for the TLLI reads the
octet after the block, both in EGPRS and in GPRS. -/
theorem C09_violated (len : Nat) (h : Hdr) (he : h.e = 0) :
    len ∈ (fromUl true (fun _ => 2) len h none).reads ∧
    len ∈ (fromUl false (fun _ => 6) len h none).reads := by
  have key : ∀ (k offs : Nat) (rd : List Nat), offs + k = len + 2 → offs ≤ len →
      (∃ r, parseEgprs (fun _ => 2) len (decide (h.cv = 0)) none k offs [] rd = .err r ∧ len ∈ r) ∧
      (∃ r, parseGprs (fun _ => 6) len (decide (h.cv = 0)) none k offs [] rd = .err r ∧ len ∈ r) := by
    intro k
    induction k with
    | zero => intro offs rd h1 h2; omega
    | succ k ih =>
      intro offs rd h1 h2
      unfold parseEgprs parseGprs
      rw [if_neg (by omega), if_neg (by omega)]
      simp only [Nat.reduceMod, Nat.reduceDiv, Nat.one_ne_zero, if_false, if_true, false_and]
      by_cases hl : offs = len
      · subst hl
        have hk : k = 1 := by omega
        subst hk
        constructor
        · unfold parseEgprs; rw [if_pos (by omega)]; exact ⟨_, rfl, by simp⟩
        · unfold parseGprs; rw [if_pos (by omega)]; exact ⟨_, rfl, by simp⟩
      · exact ih (offs + 1) _ (by omega) (by omega)
  obtain ⟨⟨r1, h1, h2⟩, ⟨r2, h3, h4⟩⟩ := key (len + 2) 0 [] (by omega) (by omega)
  unfold fromUl
  simp only [he, ne_eq, not_true_eq_false, if_false, Bool.false_eq_true, if_true, h1, h3]
  exact ⟨h2, h4⟩

/-! Non-vacuity: a real block with two frame ends is parsed into pieces. -/
example : (fromUl false (memOf ([26, 53] ++ List.replicate 20 7) (fun _ => 0)) 22
    ⟨0, 15, false, false⟩ (some 16)).pieces = some [⟨2, 6, true⟩, ⟨8, 13, true⟩] := by decide +kernel

/-- ... and one with a length octet pointing past the end is refused. -/
example : (fromUl true (memOf (List.replicate 22 0x7f) (fun _ => 0)) 22
    ⟨0, 15, false, false⟩ (some 16)).pieces = none := by decide +kernel

end Verif.Seg
