import Verif.Lemmas.Ulc
/-!
# C18: An uplink block is promised to one owner only
-/

namespace Verif.Ulc

open Verif.Fn

/-- Histories of a PDCH's uplink reservations. `b` is the first frame that has not passed yet:
time moves on with `expire`, by any number of frames less than half a hyperframe. Reservations
are made and looked up for frames within a window from then on. -/
inductive Reach : Nat → List Node → Prop
  | init (b : Nat) : b < H → Reach b []
  | reserve {b l} (fn : Nat) (o : Owner) : Reach b l → fn < H → fnSub fn b < W →
      Reach b (reserve l fn o).2
  | sba {b l} (lastRts id : Nat) : Reach b l → BlockStart lastRts → fnSub (nextFn lastRts 52) b < W →
      fnSub (sbaAlloc l lastRts id).1 b < W → Reach b (sbaAlloc l lastRts id).2.2
  | releaseFn {b l} (fn : Nat) : Reach b l → fn < H → fnSub fn b < H / 2 → Reach b (releaseFn l fn).2
  | releaseTbf {b l} (t : Nat) : Reach b l → Reach b (releaseTbf l t)
  | expire {b l} (freed : Node → List Nat) (fn : Nat) : Reach b l → fn < H → fnSub fn b < H / 2 →
      Reach (nextFn fn 1) (expireFn freed l fn).1

theorem foldl_release (ts : List Nat) (l : List Node) :
    ts.foldl releaseTbf l = l.filter (fun m => ∀ t ∈ ts, m.owner.tbf? ≠ some t) := by
  induction ts generalizing l with
  | nil => simp only [List.foldl_nil]; symm; apply List.filter_eq_self.2; simp
  | cons t ts ih =>
    rw [List.foldl_cons, ih, releaseTbf_spec, List.filter_filter]
    congr 1
    funext m
    simp [Bool.and_comm]

/-- Which reservations an expiry at frame `fn` removes and whom it notifies. -/
theorem expire_spec (freed : Node → List Nat) {b : Nat} {fn : Nat} (hf : fn < H) (of : fnSub fn b < H / 2) :
    ∀ (n : Nat) (l : List Node), l.length ≤ n → Window b l →
    (expire freed fn n l).2.Sublist l ∧
    (∀ m ∈ (expire freed fn n l).2, fnSub m.fn b ≤ fnSub fn b) ∧
    (∀ m ∈ l, fnSub m.fn b ≤ fnSub fn b → m ∈ (expire freed fn n l).2 ∨
      ∃ k ∈ (expire freed fn n l).2, ∃ t ∈ freed k, m.owner.tbf? = some t) ∧
    (expire freed fn n l).1 = l.filter (fun m => fnSub fn b < fnSub m.fn b ∧
      ∀ k ∈ (expire freed fn n l).2, ∀ t ∈ freed k, m.owner.tbf? ≠ some t) := by
  intro n
  induction n with
  | zero =>
    intro l hl h
    have : l = [] := List.length_eq_zero_iff.1 (by omega)
    subst this
    simp [expire]
  | succ n ih =>
    intro l hl h
    cases l with
    | nil => simp [expire]
    | cons it l =>
      unfold expire
      have hc := h.cmp' hf of (n := it) List.mem_cons_self
      have hs := List.pairwise_cons.1 h.sorted
      by_cases h1 : fncmp it.fn fn > 0
      · rw [if_pos h1]
        have hgt := hc.2.2.1 h1
        refine ⟨List.nil_sublist _, by simp, ?_, ?_⟩
        · intro m hm hle
          rw [List.mem_cons] at hm
          rcases hm with rfl | hm
          · omega
          · have := hs.1 m hm; omega
        · symm
          apply List.filter_eq_self.2
          intro m hm
          rw [List.mem_cons] at hm
          simp only [List.not_mem_nil, false_implies, implies_true, and_true, decide_eq_true_eq]
          rcases hm with rfl | hm
          · exact hgt
          · have := hs.1 m hm; omega
      · rw [if_neg h1]
        have hle : fnSub it.fn b ≤ fnSub fn b := by
          have := mt hc.2.2.2 h1; omega
        have hsub : ((freed it).foldl releaseTbf l).Sublist l := by
          rw [foldl_release]; exact List.filter_sublist
        have hw := h.tail.sublist hsub
        obtain ⟨i1, i2, i3, i4⟩ := ih _ (by
          have := hsub.length_le
          simp only [List.length_cons] at hl; omega) hw
        dsimp only
        generalize hr : expire freed fn n ((freed it).foldl releaseTbf l) = r at *
        refine ⟨(i1.trans hsub).cons_cons it, ?_, ?_, ?_⟩
        · intro m hm
          rw [List.mem_cons] at hm
          rcases hm with rfl | hm
          · exact hle
          · exact i2 m hm
        · intro m hm hm'
          rw [List.mem_cons] at hm
          rcases hm with rfl | hm
          · exact Or.inl List.mem_cons_self
          · by_cases hq : ∃ t ∈ freed it, m.owner.tbf? = some t
            · obtain ⟨t, ht, e⟩ := hq
              exact Or.inr ⟨it, List.mem_cons_self, t, ht, e⟩
            · have hml : m ∈ (freed it).foldl releaseTbf l := by
                rw [foldl_release, List.mem_filter]
                refine ⟨hm, ?_⟩
                simp only [decide_eq_true_eq]
                exact fun t ht e => hq ⟨t, ht, e⟩
              rcases i3 m hml hm' with h | ⟨k, hk, x⟩
              · exact Or.inl (List.mem_cons_of_mem _ h)
              · exact Or.inr ⟨k, List.mem_cons_of_mem _ hk, x⟩
        · rw [i4, foldl_release, List.filter_filter]
          rw [List.filter_cons_of_neg (by simp; intro h; omega)]
          apply List.filter_congr
          intro m _
          rw [← Bool.decide_and, decide_eq_decide]
          simp only [List.mem_cons, forall_eq_or_imp]
          constructor
          · rintro ⟨⟨a, c⟩, d⟩; exact ⟨a, d, c⟩
          · rintro ⟨a, d, c⟩; exact ⟨⟨a, c⟩, d⟩

theorem next_window {b l fn} (h : Window b l) (hf : fn < H) (ha : ∀ m ∈ l, fnSub fn b < fnSub m.fn b) :
    Window (nextFn fn 1) l := by
  have hoff : ∀ m ∈ l, fnSub m.fn (nextFn fn 1) = fnSub m.fn b - fnSub fn b - 1 := by
    intro m hm
    have h1 := ha m hm
    have h2 := (h.inside m hm).1
    have h3 := h.base
    have h4 := off_lt b m.fn
    have e1 := fnSub_diff h.base hf h2
    rw [if_pos (by omega)] at e1
    rw [show fnSub m.fn b - fnSub fn b - 1 = fnSub m.fn fn - 1 by omega]
    have h5 : 0 < fnSub m.fn fn := by omega
    clear e1 h1 h3 h4 ha h
    unfold nextFn fnSub H at *
    omega
  refine ⟨Nat.mod_lt _ (by decide), ?_, ?_⟩
  · intro m hm
    have := h.inside m hm
    rw [hoff m hm]; omega
  · have hp : l.Pairwise (fun x y => x ∈ l ∧ y ∈ l ∧ fnSub x.fn b < fnSub y.fn b) :=
      List.Pairwise.imp_of_mem (fun ha hb h => ⟨ha, hb, h⟩) h.sorted
    refine hp.imp ?_
    rintro x y ⟨hx, hy, hlt⟩
    rw [hoff x hx, hoff y hy]
    have := ha x hx
    omega

theorem nextBlock_form {x : Nat} (h : BlockStart x) :
    BlockStart (fnNextBlock x) ∧ ∃ d, (d = 4 ∨ d = 5) ∧ fnNextBlock x = nextFn x d ∧
      ∀ e, 0 < e → e < d → ¬ BlockStart (nextFn x e) := by
  obtain ⟨k, hk, rfl⟩ := (C20_blocks_all x).1 h
  refine ⟨?_, ?_⟩
  · rw [C20_next_block k hk]
    exact (C20_blocks_all _).2 ⟨_, Nat.mod_lt _ (by decide), rfl⟩
  · rw [← C20_rts_next k hk]
    unfold rtsNextFn nextFn
    refine ⟨4 + if fn2bn (blockFn k) % 3 = 2 then 1 else 0, by split <;> omega, by rw [Nat.add_assoc], ?_⟩
    intro e h0 he hb
    rw [C20_block_number] at he
    rw [blockFn_eq] at hb
    obtain ⟨-, hm⟩ := hb
    have hkey : ∀ r < 12, ∀ e < 5, e = 0 ∨ ¬ e < 4 + (if r % 3 = 2 then 1 else 0) ∨
        (4 * r + r / 3 + e) % 52 ∉ blockStarts := by decide
    have hk' := hkey (k % 12) (by omega) e (by split at he <;> omega)
    rcases hk' with h1 | h1 | h1
    · omega
    · exact h1 he
    apply h1
    have : (52 * (k / 12) + (4 * (k % 12) + k % 12 / 3) + e) % H % 52 = (4 * (k % 12) + k % 12 / 3 + e) % 52 := by
      unfold H; omega
    rwa [this] at hm

/-- The search for a free block, from a block start on, returns the first block that has no
reservation. -/
theorem nextFreeFn_spec {b : Nat} (l : List Node) : ∀ (c : Nat), Window b l → BlockStart c →
    fnSub c b < W + 5 →
    BlockStart (nextFreeFn l c) ∧ fnSub c b ≤ fnSub (nextFreeFn l c) b ∧
    fnSub (nextFreeFn l c) b < W + 5 ∧ (∀ n ∈ l, n.fn ≠ nextFreeFn l c) ∧
    (∀ x, BlockStart x → fnSub c b ≤ fnSub x b → fnSub x b < fnSub (nextFreeFn l c) b →
      ∃ n ∈ l, n.fn = x) := by
  have hWH : W + 100 < H / 2 := by decide
  induction l with
  | nil =>
    intro c h hc ho
    unfold nextFreeFn
    exact ⟨hc, Nat.le_refl _, ho, by simp, fun x _ h1 h2 => by omega⟩
  | cons it l ih =>
    intro c h hc ho
    have hcmp := h.cmp' hc.1 (by omega) (n := it) List.mem_cons_self
    have hs := List.pairwise_cons.1 h.sorted
    unfold nextFreeFn
    by_cases h1 : fncmp it.fn c > 0
    · rw [if_pos h1]
      have hgt := hcmp.2.2.1 h1
      refine ⟨hc, Nat.le_refl _, ho, ?_, fun x _ h1 h2 => by omega⟩
      intro n hn e
      rw [List.mem_cons] at hn
      rcases hn with rfl | hn
      · rw [e] at hgt; omega
      · have := hs.1 n hn; rw [e] at this; omega
    rw [if_neg h1]
    by_cases h2 : fncmp it.fn c = 0
    · rw [if_pos h2]
      have he := hcmp.2.1.1 h2
      obtain ⟨hb', d, hd, hn', hbetween⟩ := nextBlock_form hc
      have hin := h.inside it List.mem_cons_self
      rw [he] at hin
      have hoff : ∀ e, e ≤ 5 → fnSub (nextFn c e) b = fnSub c b + e := by
        intro e he
        have h3 := h.base
        have h4 := hin.1
        have h5 : fnSub c b < 1000000 := hin.2
        clear hcmp hs h1 h2 hb' hn' hbetween hin ih ho hWH
        unfold nextFn fnSub H at *
        omega
      have hon := hoff d (by omega)
      rw [← hn'] at hon
      have hinW := hin.2
      obtain ⟨i1, i2, i3, i4, i5⟩ := ih (fnNextBlock c) h.tail hb' (by omega)
      refine ⟨i1, by omega, i3, ?_, ?_⟩
      · intro n hn
        rw [List.mem_cons] at hn
        rcases hn with rfl | hn
        · intro e; rw [he] at e; rw [← e] at i2; omega
        · exact i4 n hn
      · intro x hx hge hlt
        by_cases hx1 : fnSub (fnNextBlock c) b ≤ fnSub x b
        · obtain ⟨n, hn, e⟩ := i5 x hx hx1 hlt
          exact ⟨n, List.mem_cons_of_mem _ hn, e⟩
        · by_cases hx2 : fnSub x b = fnSub c b
          · exact ⟨it, List.mem_cons_self, by rw [he]; exact (off_inj h.base hx.1 hc.1 hx2).symm⟩
          · exfalso
            refine hbetween (fnSub x b - fnSub c b) (by omega) (by omega) ?_
            have e : x = nextFn c (fnSub x b - fnSub c b) :=
              off_inj h.base hx.1 (Nat.mod_lt _ (by decide)) (by rw [hoff _ (by omega)]; omega)
            rw [← e]; exact hx
    · rw [if_neg h2]
      have hlt : fnSub it.fn b < fnSub c b := hcmp.1.1 (by omega)
      obtain ⟨i1, i2, i3, i4, i5⟩ := ih c h.tail hc ho
      refine ⟨i1, i2, i3, ?_, ?_⟩
      · intro n hn
        rw [List.mem_cons] at hn
        rcases hn with rfl | hn
        · intro e; rw [← e] at i2; omega
        · exact i4 n hn
      · intro x hx hge hlt
        obtain ⟨n, hn, e⟩ := i5 x hx hge hlt
        exact ⟨n, List.mem_cons_of_mem _ hn, e⟩

theorem reserve_window {b l} (h : Window b l) (fn : Nat) (o : Owner) (hx : fn < H) (ox : fnSub fn b < W) :
    Window b (reserve l fn o).2 := by
  unfold reserve
  rcases addNode_spec h ⟨fn, o⟩ hx ox with ⟨e, -⟩ | ⟨l1, l2, -, e, hw, -⟩
  · rw [e]; exact h
  · rw [e]; exact hw

theorem reach_window {b l} (h : Reach b l) : Window b l := by
  induction h with
  | init b hb => exact ⟨hb, by simp, List.Pairwise.nil⟩
  | reserve fn o _ hx ox ih => exact reserve_window ih fn o hx ox
  | @sba b l lastRts id _ hr ho hres ih =>
    have hbs : BlockStart (nextFn lastRts 52) := by
      obtain ⟨h1, h2⟩ := hr
      refine ⟨Nat.mod_lt _ (by decide), ?_⟩
      rwa [show nextFn lastRts 52 % 52 = lastRts % 52 by unfold nextFn H; omega]
    have := nextFreeFn_spec l _ ih hbs (by omega)
    exact reserve_window ih _ _ this.1.1 hres
  | releaseFn fn _ hx ox ih =>
    rw [(releaseFn_spec ih hx ox).1]
    exact ih.sublist List.filter_sublist
  | releaseTbf t _ ih =>
    rw [releaseTbf_spec]
    exact ih.sublist List.filter_sublist
  | @expire b l freed fn _ hx ox ih =>
    obtain ⟨-, -, -, e⟩ := expire_spec freed hx ox l.length l (Nat.le_refl _) ih
    have hw : Window b (expireFn freed l fn).1 := by
      unfold expireFn
      rw [e]; exact ih.sublist List.filter_sublist
    refine next_window hw hx ?_
    intro m hm
    unfold expireFn at hm
    rw [e, List.mem_filter] at hm
    simp only [decide_eq_true_eq] at hm
    exact hm.2.1

/-- At every moment no frame has two reservations. -/
theorem C18_unique {b l} (h : Reach b l) : (l.map (·.fn)).Nodup := (reach_window h).nodup

/-- A request for a taken block is refused and changes nothing; any other request is granted,
the block belongs to the requester from then on, and no other reservation is touched. -/
theorem C18_reserve {b l} (h : Reach b l) (fn : Nat) (o : Owner) (hx : fn < H) (ox : fnSub fn b < W) :
    ((∃ n ∈ l, n.fn = fn) → reserve l fn o = (false, l)) ∧
    ((∀ n ∈ l, n.fn ≠ fn) → (reserve l fn o).1 = true ∧
      ∀ x, x ∈ (reserve l fn o).2 ↔ x = ⟨fn, o⟩ ∨ x ∈ l) := by
  unfold reserve
  rcases addNode_spec (reach_window h) ⟨fn, o⟩ hx ox with ⟨e, n, hn, he⟩ | ⟨l1, l2, e1, e2, -, hne⟩
  · rw [e]
    exact ⟨fun _ => rfl, fun hno => absurd he (hno n hn)⟩
  · refine ⟨fun ⟨n, hn, he⟩ => absurd he (hne n hn), fun _ => ?_⟩
    rw [e2]
    refine ⟨rfl, fun x => ?_⟩
    rw [e1]
    simp only [List.mem_append, List.mem_cons]
    constructor
    · rintro (h | h | h) <;> simp [h]
    · rintro (h | h | h) <;> simp [h]

/-- What is looked up for a frame is its reservation. -/
theorem C18_lookup {b l} (h : Reach b l) (fn : Nat) (hx : fn < H) (ox : fnSub fn b < H / 2) (n : Node) :
    getNode l fn = some n ↔ n ∈ l ∧ n.fn = fn := getNode_some (reach_window h) hx ox n

/-- Giving back one frame removes its reservation and no other. -/
theorem C18_release_fn {b l} (h : Reach b l) (fn : Nat) (hx : fn < H) (ox : fnSub fn b < H / 2) :
    (releaseFn l fn).2 = l.filter (fun m => m.fn ≠ fn) ∧
    ((releaseFn l fn).1 = true ↔ ∃ n ∈ l, n.fn = fn) := releaseFn_spec (reach_window h) hx ox

/-- Freeing a TBF removes all and only its reservations. -/
theorem C18_release_tbf (l : List Node) (t : Nat) :
    (releaseTbf l t).Sublist l ∧
    ∀ m, m ∈ releaseTbf l t ↔ m ∈ l ∧ m.owner ≠ .usf t ∧ ∀ r, m.owner ≠ .poll t r := by
  rw [releaseTbf_spec]
  refine ⟨List.filter_sublist, fun m => ?_⟩
  rw [List.mem_filter, decide_eq_true_eq]
  refine and_congr_right (fun _ => ?_)
  cases m.owner <;> simp [Owner.tbf?]

/-- Expiry at a frame, when notifications free no TBF: exactly the reservations up to that frame
are removed, and exactly their owners are notified, once each. -/
theorem C18_expire {b l} (h : Reach b l) (fn : Nat) (hx : fn < H) (ox : fnSub fn b < H / 2) :
    (expireFn (fun _ => []) l fn).1 = l.filter (fun m => fnSub fn b < fnSub m.fn b) ∧
    (expireFn (fun _ => []) l fn).2 = l.filter (fun m => fnSub m.fn b ≤ fnSub fn b) := by
  obtain ⟨e1, e2, e3, e4⟩ := expire_spec (fun _ => []) hx ox l.length l (Nat.le_refl _) (reach_window h)
  refine ⟨by unfold expireFn; rw [e4]; simp, ?_⟩
  unfold expireFn
  have hnd : l.Nodup := by
    have := C18_unique h
    unfold List.Nodup at this ⊢
    rw [List.pairwise_map] at this
    exact this.imp (fun h e => h (by rw [e]))
  generalize (expire (fun _ => []) fn l.length l).2 = r at *
  -- a sublist of a duplicate-free list is determined by its members
  have key : ∀ (l r : List Node) (p : Node → Bool), l.Nodup → r.Sublist l → (∀ m ∈ r, p m = true) →
      (∀ m ∈ l, p m = true → m ∈ r) → r = l.filter p := by
    intro l r p hnd hs
    induction hs with
    | slnil => intros; rfl
    | @cons r l a hs ih =>
      intro h1 h2
      have hnd' := List.nodup_cons.1 hnd
      have hpa : p a ≠ true := fun hp => hnd'.1 (hs.subset (h2 a List.mem_cons_self hp))
      rw [List.filter_cons_of_neg hpa]
      exact ih hnd'.2 h1 (fun m hm hp => h2 m (List.mem_cons_of_mem _ hm) hp)
    | @cons_cons r l a hs ih =>
      intro h1 h2
      have hnd' := List.nodup_cons.1 hnd
      rw [List.filter_cons_of_pos (h1 a List.mem_cons_self)]
      congr 1
      refine ih hnd'.2 (fun m hm => h1 m (List.mem_cons_of_mem _ hm)) (fun m hm hp => ?_)
      have := h2 m (List.mem_cons_of_mem _ hm) hp
      rw [List.mem_cons] at this
      rcases this with rfl | h
      · exact absurd hm hnd'.1
      · exact h
  refine key l r _ hnd e1 (fun m hm => by simpa using e2 m hm) (fun m hm hp => ?_)
  rcases e3 m hm (by simpa using hp) with h | ⟨k, -, t, ht, -⟩
  · exact h
  · simp at ht

/-- Expiry in general, when notifying an owner may free TBFs (which gives back their
reservations): only passed reservations are notified, none twice; a passed one is left out only
if its TBF was freed before; everything else stays. -/
theorem C18_expire_freeing {b l} (h : Reach b l) (freed : Node → List Nat) (fn : Nat) (hx : fn < H)
    (ox : fnSub fn b < H / 2) :
    (expireFn freed l fn).2.Sublist l ∧
    (∀ m ∈ (expireFn freed l fn).2, fnSub m.fn b ≤ fnSub fn b) ∧
    (∀ m ∈ l, fnSub m.fn b ≤ fnSub fn b → m ∈ (expireFn freed l fn).2 ∨
      ∃ k ∈ (expireFn freed l fn).2, ∃ t ∈ freed k, m.owner.tbf? = some t) ∧
    (∀ m, m ∈ (expireFn freed l fn).1 ↔ m ∈ l ∧ fnSub fn b < fnSub m.fn b ∧
      ∀ k ∈ (expireFn freed l fn).2, ∀ t ∈ freed k, m.owner.tbf? ≠ some t) := by
  obtain ⟨e1, e2, e3, e4⟩ := expire_spec freed hx ox l.length l (Nat.le_refl _) (reach_window h)
  refine ⟨e1, e2, e3, fun m => ?_⟩
  unfold expireFn
  rw [e4, List.mem_filter, decide_eq_true_eq]

/-- A single block allocation always gets a block of its own: the first block without reservation
at least 52 frames ahead of the last request. (The caller does not check.) -/
theorem C18_sba {b l} (h : Reach b l) (lastRts id : Nat) (hr : BlockStart lastRts)
    (ho : fnSub (nextFn lastRts 52) b < W) (hw : fnSub (sbaAlloc l lastRts id).1 b < W) :
    (sbaAlloc l lastRts id).2.1 = true ∧ BlockStart (sbaAlloc l lastRts id).1 ∧
    (∀ n ∈ l, n.fn ≠ (sbaAlloc l lastRts id).1) ∧
    fnSub (nextFn lastRts 52) b ≤ fnSub (sbaAlloc l lastRts id).1 b ∧
    (∀ x, BlockStart x → fnSub (nextFn lastRts 52) b ≤ fnSub x b →
      fnSub x b < fnSub (sbaAlloc l lastRts id).1 b → ∃ n ∈ l, n.fn = x) ∧
    ∀ x, x ∈ (sbaAlloc l lastRts id).2.2 ↔ x = ⟨(sbaAlloc l lastRts id).1, .sba id⟩ ∨ x ∈ l := by
  have hbs : BlockStart (nextFn lastRts 52) := by
    obtain ⟨h1, h2⟩ := hr
    refine ⟨Nat.mod_lt _ (by decide), ?_⟩
    rwa [show nextFn lastRts 52 % 52 = lastRts % 52 by unfold nextFn H; omega]
  obtain ⟨i1, i2, i3, i4, i5⟩ := nextFreeFn_spec l _ (reach_window h) hbs (by omega)
  obtain ⟨j1, j2⟩ := (C18_reserve h (sbaAlloc l lastRts id).1 (.sba id) i1.1 hw).2 i4
  exact ⟨j1, i1, i4, i2, i5, j2⟩

/-! A concrete history: wrap-around at the end of the hyperframe. -/

def demo : List Node := (reserve (reserve [] 2715643 (.poll 1 0)).2 0 (.usf 2)).2

example : Reach 2715640 demo :=
  .reserve 0 (.usf 2) (.reserve 2715643 (.poll 1 0) (.init _ (by decide)) (by decide) (by decide))
    (by decide) (by decide)
example : reserve demo 0 (.poll 1 3) = (false, demo) ∧ (sbaAlloc demo 2715591 7).1 = 4 ∧
    (expireFn (fun _ => []) demo 2715643) = ([⟨0, .usf 2⟩], [⟨2715643, .poll 1 0⟩]) := by decide +kernel

end Verif.Ulc
