import Verif.Spec.DlService
import Verif.Lemmas.SegLink
import Verif.Lemmas.DlWindow
/-! The downlink service. -/

namespace Verif.DlService

open Verif.LlcSeg
open Verif.Seg (Asm Llc Block Holds afterBlock asmAll createBlock gprsLis_li0 gprsLis_tail gprsLis_fill egprsLis_fill
  egprsLis_tail nonempty_snoc)
open Verif.RlcDl (Win Why takeNext idx cfg_facts idx_inj idx_inj' mod_inj isNew takeNext_spec)
open Verif.DlData (Tbf)

/-! ### Reading -/

theorem gprsLens_cont (qs : List (List Nat)) (R : List Nat) (hq : ∀ q ∈ qs, 1 ≤ q.length) :
    gprsLens (qs.map (fun q => 4 * q.length + 2) ++ R) = (gprsLens R).map fun x => (qs.map List.length ++ x.1, x.2) := by
  induction qs with
  | nil => simp
  | cons q qs ih =>
    have h1 := hq q (by simp)
    rw [List.map_cons, List.cons_append, gprsLens, ih (fun p hp => hq p (by simp [hp]))]
    rw [if_neg (by omega), if_neg (by omega), if_neg (by omega)]
    have : (4 * q.length + 2) / 4 = q.length := by omega
    rw [this]
    cases gprsLens R <;> simp

theorem egprsLens_cont (qs : List (List Nat)) (R : List Nat) (hq : ∀ q ∈ qs, q.length < 127) :
    egprsLens (qs.map (fun q => 2 * q.length) ++ R) = (egprsLens R).map fun x => (qs.map List.length ++ x.1, x.2) := by
  induction qs with
  | nil => simp
  | cons q qs ih =>
    have h1 := hq q (by simp)
    rw [List.map_cons, List.cons_append, egprsLens, ih (fun p hp => hq p (by simp [hp]))]
    rw [if_neg (by omega), if_neg (by omega)]
    have : (2 * q.length) / 2 = q.length := by omega
    rw [this]
    cases egprsLens R <;> simp

theorem cut_flatten (ps : List (List Nat)) (l : List Nat) : cut (ps.map List.length) (ps.flatten ++ l) = some (ps, l) := by
  induction ps with
  | nil => simp [cut]
  | cons p ps ih =>
    rw [List.map_cons, List.flatten_cons, List.append_assoc, cut, if_pos (by simp)]
    simp [ih]

theorem readBlock_content (edge : Bool) (c : Content) (hv : c.Valid edge) :
    readBlock edge (c.e edge) (c.octets edge []) = some c := by
  obtain ⟨ends, after⟩ := c
  have fin : ∀ (k : Rest) (R l : List Nat), (⟨ends, after⟩ : Content).lis edge ≠ [] → after.octets = l →
      (match k with | .tail => After.tail l | .li0 => .li0 l | .fill => .fill l) = after →
      (if edge then egprsLens ((⟨ends, after⟩ : Content).lis edge ++ (ends.flatten ++ l))
        else gprsLens ((⟨ends, after⟩ : Content).lis edge ++ (ends.flatten ++ l))) = some (ends.map List.length, k, ends.flatten ++ l) →
      readBlock edge ((⟨ends, after⟩ : Content).e edge) ((⟨ends, after⟩ : Content).octets edge []) = some ⟨ends, after⟩ := by
    intro k R l hl ho hk h
    unfold readBlock
    rw [if_neg (by simp [Content.e, hl])]
    have : (⟨ends, after⟩ : Content).octets edge [] = (⟨ends, after⟩ : Content).lis edge ++ (ends.flatten ++ l) := by
      simp [Content.octets, ho]
    rw [this, h]
    dsimp only
    rw [cut_flatten]
    cases k <;> (dsimp only at hk ⊢; rw [hk])
  cases edge
  · simp only [Content.Valid, Bool.false_eq_true, if_false] at hv
    obtain ⟨hv1, hv2⟩ := hv
    cases after with
    | li0 l =>
      have hl : (⟨ends, .li0 l⟩ : Content).lis false = ends.map (fun q => 4 * q.length + 2) ++ [1] := gprsLis_li0 ends l
      refine fin .li0 [] l (by rw [hl]; simp) rfl rfl ?_
      rw [hl, List.append_assoc]
      simp only [Bool.false_eq_true, if_false]
      rw [gprsLens_cont _ _ (fun q hq => (hv1 q hq).1)]
      simp [gprsLens]
    | tail l =>
      by_cases hne : ends = []
      · subst hne; rfl
      · obtain ⟨qs, p, rfl⟩ := nonempty_snoc hne
        have hl : (⟨qs ++ [p], .tail l⟩ : Content).lis false = qs.map (fun q => 4 * q.length + 2) ++ [4 * p.length + 3] :=
          gprsLis_tail qs p l
        refine fin .tail [] l (by rw [hl]; simp) rfl rfl ?_
        rw [hl, List.append_assoc]
        simp only [Bool.false_eq_true, if_false]
        rw [gprsLens_cont _ _ (fun q hq => (hv1 q (by simp [hq])).1)]
        have := (hv1 p (by simp)).1
        rw [List.singleton_append, gprsLens, if_neg (by omega), if_neg (by omega), if_pos (by omega)]
        have : (4 * p.length + 3) / 4 = p.length := by omega
        simp [this]
    | fill l =>
      obtain ⟨qs, p, rfl⟩ := nonempty_snoc hv2
      have hl : (⟨qs ++ [p], .fill l⟩ : Content).lis false = qs.map (fun q => 4 * q.length + 2) ++ [4 * p.length + 1] :=
        gprsLis_fill qs p l
      refine fin .fill [] l (by rw [hl]; simp) rfl rfl ?_
      rw [hl, List.append_assoc]
      simp only [Bool.false_eq_true, if_false]
      rw [gprsLens_cont _ _ (fun q hq => (hv1 q (by simp [hq])).1)]
      have := (hv1 p (by simp)).1
      rw [List.singleton_append, gprsLens, if_neg (by omega), if_pos (by omega), if_pos (by omega)]
      have : (4 * p.length + 1) / 4 = p.length := by omega
      simp [this]
  · simp only [Content.Valid, if_true] at hv
    obtain ⟨hv1, hv2, hv3⟩ := hv
    cases after with
    | li0 l => exact hv3.elim
    | tail l =>
      by_cases hne : ends = []
      · subst hne; rfl
      · obtain ⟨qs, p, rfl⟩ := nonempty_snoc hne
        have hl : (⟨qs ++ [p], .tail l⟩ : Content).lis true = qs.map (fun q => 2 * q.length) ++ [2 * p.length + 1] :=
          egprsLis_tail qs p l
        refine fin .tail [] l (by rw [hl]; simp) rfl rfl ?_
        rw [hl, List.append_assoc]
        simp only [if_true]
        rw [egprsLens_cont _ _ (fun q hq => hv1 q (by simp [hq]))]
        have := hv1 p (by simp)
        rw [List.singleton_append, egprsLens, if_neg (by omega), if_pos (by omega)]
        have : (2 * p.length + 1) / 2 = p.length := by omega
        simp [this]
    | fill l =>
      have hl : (⟨ends, .fill l⟩ : Content).lis true = ends.map (fun q => 2 * q.length) ++ [255] := egprsLis_fill ends l
      refine fin .fill [] l (by rw [hl]; simp) rfl rfl ?_
      rw [hl, List.append_assoc]
      simp only [if_true]
      rw [egprsLens_cont _ _ hv1]
      simp [egprsLens]

/-! ### Frames -/

def asm (f : Frames) : Asm := ⟨f.acc, f.out⟩

theorem asm_add (f : Frames) (s : List Nat) (e : Bool) : asm (f.add s e) = (asm f).piece s e := by
  cases e <;> simp [asm, Frames.add, Asm.piece]

theorem asm_adds (ss : List (List Nat)) (f : Frames) : asm (f.adds ss) = asmAll (asm f) ss := by
  induction ss generalizing f with
  | nil => rfl
  | cons s ss ih => rw [Frames.adds, ih, asm_add]; rfl

theorem asm_inj {f g : Frames} (h : asm f = asm g) : f = g := by
  cases f; cases g
  simp only [asm, Asm.mk.injEq] at h
  rw [h.1, h.2]

theorem frames_block {edge : Bool} {b : Block} {c : Content} (h : Holds edge b.data b.e c) (f : Frames) (x : Nat) :
    asm (f.block edge (air x b)) = afterBlock (asm f) (decide (b.cv = 0)) c := by
  unfold Frames.block air
  dsimp only
  rw [h.octets, h.e, readBlock_content edge c h.valid]
  dsimp only
  unfold afterBlock
  rw [← asm_adds]
  cases c.after with
  | fill l => rfl
  | tail l =>
    dsimp only
    split
    · rfl
    · rw [asm_add]
  | li0 l =>
    dsimp only
    split
    · rfl
    · rw [asm_add]

/-- Frames from the blocks in sequence. -/
def run (edge : Bool) (blks : List Block) : Frames := blks.foldl (fun f b => f.block edge (air 0 b)) ⟨[], []⟩

theorem add_out (f : Frames) (s : List Nat) (e : Bool) : f.out <+: (f.add s e).out := by
  cases e
  · exact List.prefix_refl _
  · exact List.prefix_append _ _

theorem adds_out (ss : List (List Nat)) (f : Frames) : f.out <+: (f.adds ss).out := by
  induction ss generalizing f with
  | nil => exact List.prefix_refl _
  | cons s ss ih => exact (add_out f s true).trans (ih _)

theorem block_out (edge : Bool) (f : Frames) (b : Air) : f.out <+: (f.block edge b).out := by
  unfold Frames.block
  cases readBlock edge b.e b.octets with
  | none => exact List.prefix_refl _
  | some c =>
    dsimp only
    cases c.after with
    | fill l => exact adds_out _ _
    | tail l =>
      dsimp only
      split
      · exact adds_out _ _
      · exact (adds_out _ _).trans (add_out _ _ _)
    | li0 l =>
      dsimp only
      split
      · exact adds_out _ _
      · exact (adds_out _ _).trans (add_out _ _ _)

theorem run_snoc (edge : Bool) (blks : List Block) (b : Block) (x : Nat) :
    run edge (blks ++ [b]) = (run edge blks).block edge (air x b) := by
  unfold run
  rw [List.foldl_append]
  rfl

theorem run_take (edge : Bool) (blks : List Block) (q : Nat) : (run edge (blks.take q)).out <+: (run edge blks).out := by
  have : ∀ (bs : List Block) (f : Frames), f.out <+: (bs.foldl (fun f b => f.block edge (air 0 b)) f).out := by
    intro bs
    induction bs with
    | nil => intro f; exact List.prefix_refl _
    | cons b bs ih => intro f; exact (block_out edge f _).trans (ih _)
  unfold run
  conv => rhs; rw [← List.take_append_drop q blks]
  rw [List.foldl_append]
  exact this _ _

/-! ### Mobile -/

/-- The mobile has block `n`. -/
def Got (sns : Nat) (m : Mob) (n : Nat) : Prop := n < m.q ∨ (m.buf (n % sns)).isSome = true

/-- The mobile, apart from the next block in sequence. -/
structure Core (edge : Bool) (sns : Nat) (blks : List Block) (m : Mob) : Prop where
  q : m.q ≤ blks.length
  buf : ∀ x b, m.buf x = some b → ∃ n k, m.q ≤ n ∧ blks[n]? = some k ∧ x = n % sns ∧ b = air x k
  rx : m.frames = run edge (blks.take m.q)

theorem advance_spec (edge : Bool) (sns : Nat) (blks : List Block) :
    ∀ (k : Nat) (m : Mob), Core edge sns blks m → blks.length ≤ m.q + sns → blks.length - m.q ≤ k →
      Core edge sns blks (m.advance edge sns k) ∧ (m.advance edge sns k).buf ((m.advance edge sns k).q % sns) = none ∧
      m.q ≤ (m.advance edge sns k).q ∧ ∀ n, n < blks.length → Got sns m n → Got sns (m.advance edge sns k) n := by
  have entry : ∀ m, Core edge sns blks m → blks.length ≤ m.q + sns → ∀ b, m.buf (m.q % sns) = some b →
      ∃ k, blks[m.q]? = some k ∧ b = air (m.q % sns) k := by
    intro m hc hl b hb
    obtain ⟨n, k, h1, h2, h3, h4⟩ := hc.buf _ _ hb
    have hn : n < blks.length := (List.getElem?_eq_some_iff.1 h2).1
    have := mod_inj h1 (by omega) h3
    subst this
    exact ⟨k, h2, h4⟩
  intro k
  induction k with
  | zero =>
    intro m hc hl hk
    unfold Mob.advance
    refine ⟨hc, ?_, Nat.le_refl _, fun n _ h => h⟩
    cases hb : m.buf (m.q % sns) with
    | none => rfl
    | some b =>
      obtain ⟨k, h1, _⟩ := entry m hc hl b hb
      have := (List.getElem?_eq_some_iff.1 h1).1
      omega
  | succ k ih =>
    intro m hc hl hk
    unfold Mob.advance
    cases hb : m.buf (m.q % sns) with
    | none => exact ⟨hc, hb, Nat.le_refl _, fun n _ h => h⟩
    | some b =>
      obtain ⟨kk, h1, h2⟩ := entry m hc hl b hb
      have hlt := (List.getElem?_eq_some_iff.1 h1).1
      dsimp only
      have hc' : Core edge sns blks ⟨m.q + 1, fun x => if x = m.q % sns then none else m.buf x, m.frames.block edge b⟩ := by
        refine ⟨hlt, ?_, ?_⟩
        · intro x b' hx
          dsimp only at hx ⊢
          split at hx
          · cases hx
          · rename_i hne
            obtain ⟨n, k', n1, n2, n3, n4⟩ := hc.buf x b' hx
            refine ⟨n, k', ?_, n2, n3, n4⟩
            have : n ≠ m.q := fun h => hne (by rw [n3, h])
            omega
        · dsimp only
          have : blks.take (m.q + 1) = blks.take m.q ++ [kk] := by
            rw [List.take_add_one, h1]; rfl
          rw [this, run_snoc edge _ kk (m.q % sns), ← hc.rx, h2]
      obtain ⟨a1, a2, a3, a4⟩ := ih _ hc' (by dsimp only; omega) (by dsimp only; omega)
      refine ⟨a1, a2, by dsimp only at a3; omega, fun n hn hg => a4 n hn ?_⟩
      rcases hg with hg | hg
      · exact Or.inl (by dsimp only; omega)
      · by_cases he : n % sns = m.q % sns
        · left
          dsimp only
          rcases Nat.lt_or_ge m.q n with h | h
          · have := mod_inj (Nat.le_of_lt h) (by omega) he.symm; omega
          · omega
        · right
          dsimp only
          rw [if_neg he]
          exact hg

/-- Receive window and blocks. -/
theorem inWindow_iff {sns ws : Nat} (m : Mob) (n : Nat) (hs : 0 < sns) (hw : ws + ws ≤ sns) (h1 : n < m.q + ws) (h2 : m.q ≤ n + ws) :
    m.inWindow sns ws (n % sns) ↔ m.q ≤ n := by
  unfold Mob.inWindow
  have e : (n % sns + sns - m.q % sns) % sns = (n + (sns - m.q % sns)) % sns := by
    have : m.q % sns < sns := Nat.mod_lt _ hs
    rw [show n % sns + sns - m.q % sns = n % sns + (sns - m.q % sns) by omega, Nat.mod_add_mod]
  have hq := Nat.div_add_mod m.q sns
  have hqlt : m.q % sns < sns := Nat.mod_lt _ hs
  rw [e]
  rcases Nat.lt_or_ge n m.q with h | h
  · have e2 : n + (sns - m.q % sns) = sns * (m.q / sns) + (sns - (m.q - n)) := by omega
    rw [e2, Nat.mul_add_mod, Nat.mod_eq_of_lt (by omega)]
    omega
  · have e2 : n + (sns - m.q % sns) = sns * (m.q / sns + 1) + (n - m.q) := by rw [Nat.mul_add]; omega
    rw [e2, Nat.mul_add_mod, Nat.mod_eq_of_lt (by omega)]
    omega

/-- The mobile. -/
structure MobInv (edge : Bool) (sns : Nat) (blks : List Block) (m : Mob) : Prop where
  core : Core edge sns blks m
  head : m.buf (m.q % sns) = none

theorem hear_spec {edge : Bool} {sns ws : Nat} {blks : List Block} {m : Mob} (hs : 0 < sns) (hw : ws + ws ≤ sns)
    (h : MobInv edge sns blks m) (hl : blks.length ≤ m.q + ws) (n : Nat) (k : Block) (hn : blks[n]? = some k) (hq : m.q ≤ n + ws) :
    MobInv edge sns blks (m.hear edge sns ws (air (n % sns) k)) ∧ Got sns (m.hear edge sns ws (air (n % sns) k)) n ∧
      m.q ≤ (m.hear edge sns ws (air (n % sns) k)).q ∧
      ∀ i, i < blks.length → Got sns m i → Got sns (m.hear edge sns ws (air (n % sns) k)) i := by
  have hlt := (List.getElem?_eq_some_iff.1 hn).1
  have hwin := inWindow_iff (ws := ws) m n hs hw (by omega) hq
  unfold Mob.hear
  show MobInv edge sns blks (if m.inWindow sns ws (n % sns) ∧ (m.buf (n % sns)).isNone = true then _ else m) ∧ _
  simp only [show (air (n % sns) k).bsn = n % sns from rfl]
  by_cases hc : m.inWindow sns ws (n % sns) ∧ (m.buf (n % sns)).isNone = true
  · rw [if_pos hc]
    have hqn := hwin.1 hc.1
    have hcore : Core edge sns blks { m with buf := fun x => if x = n % sns then some (air (n % sns) k) else m.buf x } := by
      refine ⟨h.core.q, ?_, h.core.rx⟩
      intro x b hx
      dsimp only at hx ⊢
      split at hx
      · rename_i he
        simp only [Option.some.injEq] at hx
        exact ⟨n, k, hqn, hn, he, by rw [← hx, he]⟩
      · exact h.core.buf x b hx
    obtain ⟨a1, a2, a3, a4⟩ := advance_spec edge sns blks ws _ hcore (by dsimp only; omega) (by dsimp only; omega)
    refine ⟨⟨a1, a2⟩, a4 n hlt (Or.inr (by simp)), a3, fun i hi hg => a4 i hi ?_⟩
    rcases hg with hg | hg
    · exact Or.inl hg
    · right
      dsimp only
      split
      · rfl
      · exact hg
  · rw [if_neg hc]
    refine ⟨h, ?_, Nat.le_refl _, fun i _ hg => hg⟩
    rcases Nat.lt_or_ge n m.q with hlt' | hge
    · exact Or.inl hlt'
    · right
      have := fun x => hc ⟨hwin.2 hge, x⟩
      cases hb : m.buf (n % sns) with
      | none => rw [hb] at this; exact absurd rfl this
      | some b => rfl

/-! ### The whole -/

theorem Inv.mono {sns a s : Nat} {w : Win} {p p' : Nat → Prop} (h : RlcDl.Inv sns w a s p) (hp : ∀ n, n < s → p n → p' n) :
    RlcDl.Inv sns w a s p' :=
  { h with
    ack := fun n h1 h2 h3 => hp n h2 (h.ack n h1 h2 h3)
    old := fun n h1 => hp n (by have := h.le; omega) (h.old n h1) }

/-- The invariant: `blks` are all blocks made, `a` is the number of the oldest outstanding one. -/
structure SysInv (edge : Bool) (sns ws : Nat) (s : Sys) (blks : List Block) (a : Nat) : Prop where
  win : RlcDl.Inv sns s.tbf.win a blks.length (Got sns s.mob)
  wsz : s.tbf.win.ws = ws
  store : ∀ n k, blks[n]? = some k → blks.length ≤ n + ws → s.tbf.store (idx sns n) = k
  mob : MobInv edge sns blks s.mob
  tx : run edge blks = ⟨s.tbf.llc.cur.take s.tbf.llc.idx, s.tbf.llc.completed⟩
  good : Seg.Good edge s.tbf.llc
  user : s.tbf.llc.userLoaded ++ s.tbf.llc.queue = s.given
  fin : s.tbf.finished = true → s.tbf.llc.cur = [] ∧ 0 < blks.length

section

variable {edge : Bool} {sns ws : Nat} {s : Sys} {blks : List Block} {a : Nat}

theorem SysInv.cfg (h : SysInv edge sns ws s blks a) : 0 < sns ∧ ws + ws ≤ sns ∧ 0 < ws := by
  have := cfg_facts h.win.cfg
  rw [h.wsz] at this
  omega

/-- The mobile's window lies within that of the network. -/
theorem SysInv.q (h : SysInv edge sns ws s blks a) : a ≤ s.mob.q ∧ s.mob.q ≤ blks.length ∧ blks.length ≤ a + ws := by
  refine ⟨?_, h.mob.core.q, by have := h.win.bound; rw [h.wsz] at this; exact this⟩
  rcases Nat.lt_or_ge s.mob.q a with hlt | hge
  · rcases h.win.old _ hlt with hg | hg
    · omega
    · rw [h.mob.head] at hg; cases hg
  · exact hge

/-- A block that may be sent is heard or lost. -/
theorem SysInv.radio (h : SysInv edge sns ws s blks a) (n : Nat) (k : Block) (hn : blks[n]? = some k) (hlo : blks.length ≤ n + ws)
    (heard : Bool) :
    MobInv edge sns blks (s.mob.radio edge sns ws heard (some (n % sns, k))) ∧
      (heard = true → Got sns (s.mob.radio edge sns ws heard (some (n % sns, k))) n) ∧
      ∀ i, i < blks.length → Got sns s.mob i → Got sns (s.mob.radio edge sns ws heard (some (n % sns, k))) i := by
  obtain ⟨c1, c2, c3⟩ := h.cfg
  obtain ⟨q1, q2, q3⟩ := h.q
  cases heard
  · exact ⟨h.mob, by simp, fun i _ hg => hg⟩
  · obtain ⟨x1, x2, _, x4⟩ := hear_spec c1 c2 h.mob (by omega) n k hn (by omega)
    exact ⟨x1, fun _ => x2, x4⟩

/-- A block is made. -/
theorem SysInv.make (h : SysInv edge sns ws s blks a) (n : Nat) (fin : Nat → Bool) (hn : LegalLen edge n)
    (hok : edge = false → (∃ k, fin k = true) → Seg.exactFit n 0 s.tbf.llc.pending = false) (w : Win)
    (hw : RlcDl.Inv sns w a (blks.length + 1) (Got sns s.mob)) (hwz : w.ws = ws) :
    ∃ k l, createBlock edge n fin s.tbf.llc = some (k, l) ∧
      SysInv edge sns ws { s with tbf := { win := w, llc := l
                                           store := fun i => if i = blks.length % sns % 1024 then k else s.tbf.store i
                                           finished := decide (k.cv = 0) } } (blks ++ [k]) a ∧
      (s.tbf.llc.pending ≠ [] → l.work < s.tbf.llc.work) := by
  have htx : asm (run edge blks) = ⟨s.tbf.llc.cur.take s.tbf.llc.idx, s.tbf.llc.completed⟩ := by rw [h.tx]; rfl
  obtain ⟨k, l, x1, x2, ⟨c, x3, x4⟩, x5, x6, x7, x8⟩ := Seg.createBlock_content edge n hn fin _ s.tbf.llc h.good htx hok
  refine ⟨k, l, x1, ?_, x8⟩
  have hlen : (blks ++ [k]).length = blks.length + 1 := by simp
  refine ⟨by rw [hlen]; exact hw, hwz, ?_, ⟨⟨?_, ?_, ?_⟩, h.mob.head⟩, ?_, x5, by rw [x6]; exact h.user, ?_⟩
  · intro i b hi hlo
    dsimp only
    rcases Nat.lt_or_ge i blks.length with hlt | hge
    · rw [List.getElem?_append_left hlt] at hi
      have hne : idx sns i ≠ blks.length % sns % 1024 := by
        intro he
        have := h.wsz
        have hcfg := h.win.cfg
        have := idx_inj hcfg (Nat.le_of_lt hlt) (by omega) he
        omega
      rw [if_neg hne]
      exact h.store i b hi (by omega)
    · have : i = blks.length := by have := (List.getElem?_eq_some_iff.1 hi).1; omega
      subst this
      rw [List.getElem?_append_right (Nat.le_refl _), Nat.sub_self] at hi
      simp only [List.getElem?_cons_zero, Option.some.injEq] at hi
      rw [if_pos (show idx sns blks.length = blks.length % sns % 1024 from rfl), hi]
  · have := h.mob.core.q; dsimp only; omega
  · intro x b hx
    obtain ⟨i, k', y1, y2, y3, y4⟩ := h.mob.core.buf x b hx
    exact ⟨i, k', y1, by rw [List.getElem?_append_left (List.getElem?_eq_some_iff.1 y2).1]; exact y2, y3, y4⟩
  · dsimp only
    rw [List.take_append_of_le_length h.mob.core.q]
    exact h.mob.core.rx
  · dsimp only
    apply asm_inj
    rw [run_snoc edge blks k 0, frames_block x3, x4]
    rfl
  · intro hf
    have hcv : k.cv = 0 := by simpa using hf
    exact ⟨(x7 hcv).1, by rw [hlen]; omega⟩

theorem give_inv (h : SysInv edge sns ws s blks a) (f : List Nat) (hf : 5 ≤ f.length) :
    SysInv edge sns ws { s with given := s.given ++ [f], tbf := s.tbf.give f } blks a := by
  refine ⟨h.win, h.wsz, h.store, h.mob, h.tx, ⟨h.good.idx, h.good.idxG, h.good.five, ?_, h.good.top, h.good.dum⟩, ?_, h.fin⟩
  · intro g hg
    simp only [DlData.Tbf.give, List.mem_append, List.mem_singleton] at hg
    rcases hg with hg | rfl
    · exact h.good.q5 g hg
    · exact hf
  · have := h.user
    simp only [DlData.Tbf.give, Seg.Llc.userLoaded] at this ⊢
    rw [← this, List.append_assoc]

theorem ack_inv (h : SysInv edge sns ws s blks a) (bits : List Bool)
    (ht : ∀ j, j < s.tbf.win.distance → bits[j]? = some true → s.mob.has sns ws ((s.tbf.win.va + j) % sns) = true) :
    ∃ a', SysInv edge sns ws { s with tbf := s.tbf.rcvAck bits } blks a' ∧ a ≤ a' ∧
      ∀ n, a' ≤ n → n < blks.length → n - a < bits.length →
        (s.tbf.rcvAck bits).win.vb (idx sns n) = if bits[n - a]? = some true then .acked else .nacked := by
  obtain ⟨c1, c2, c3⟩ := h.cfg
  obtain ⟨q1, q2, q3⟩ := h.q
  obtain ⟨a', y1, y2, y3, y4, y5⟩ := h.win.ackNack bits
  refine ⟨a', ⟨Inv.mono y4 ?_, y3.trans h.wsz, h.store, h.mob, h.tx, h.good, h.user, h.fin⟩, y1, ?_⟩
  · intro n hn hp
    rcases hp with hp | ⟨p1, p2, p3⟩
    · exact hp
    · have hd := h.win.distance
      have := ht (n - a) (by omega) p3
      have e : (s.tbf.win.va + (n - a)) % sns = n % sns := by
        rw [h.win.ha, Nat.mod_add_mod, show a + (n - a) = n by omega]
      rw [e] at this
      unfold Mob.has at this
      rcases Nat.lt_or_ge n s.mob.q with hlt | hge
      · exact Or.inl hlt
      · rw [if_pos ((inWindow_iff s.mob n c1 c2 (by omega) (by omega)).2 hge)] at this
        exact Or.inr this
  · intro n n1 n2 n3
    have := y5 n (by omega) n2
    rw [if_neg (by omega), if_pos n3] at this
    exact this

/-- The network sends: it always has a block for the first place in a radio block. -/
theorem send_inv (h : SysInv edge sns ws s blks a) (prev : Option Nat) (prevEdge preempt : Bool) (n : Nat) (fin : Nat → Bool) (heard : Bool)
    (hn : LegalLen edge n) (hok : edge = false → (∃ k, fin k = true) → Seg.exactFit n 0 s.tbf.llc.pending = false) :
    ∃ t r blks', s.tbf.send edge prev prevEdge preempt n fin = some (t, r) ∧
      SysInv edge sns ws { s with tbf := t, mob := s.mob.radio edge sns ws heard r } blks' a ∧
      (∀ b k, r = some (b, k) → SysInv edge sns ws { s with tbf := { t with win := t.win.markFirstSegment b } } blks' a) ∧
      (∀ i, i < blks.length → Got sns s.mob i → Got sns (s.mob.radio edge sns ws heard r) i) ∧
      (prev = none → r ≠ none) ∧
      ((blks' = blks ∧ t.llc = s.tbf.llc ∧ t.finished = s.tbf.finished ∧
        ((∀ m, a ≤ m → m < blks.length → s.tbf.win.vb (idx sns m) = .nacked ∨ s.tbf.win.vb (idx sns m) = .acked) →
          prev = none → a < blks.length → heard = true →
          ∃ i, a ≤ i ∧ i < blks.length ∧ s.tbf.win.vb (idx sns i) ≠ .acked ∧ Got sns (s.mob.radio edge sns ws heard r) i) ∧
        (a = blks.length → prev = none → s.tbf.finished = true)) ∨
       (s.tbf.finished = false ∧ (∃ k, blks' = blks ++ [k]) ∧ (s.tbf.llc.pending ≠ [] → t.llc.work < s.tbf.llc.work) ∧
        (∀ m, a ≤ m → m < blks.length → s.tbf.win.vb (idx sns m) ≠ .nacked) ∧
        (heard = true → Got sns (s.mob.radio edge sns ws heard r) blks.length))) := by
  obtain ⟨c1, c2, c3⟩ := h.cfg
  obtain ⟨q1, q2, q3⟩ := h.q
  obtain ⟨w, r, x1, x2, x3, x4⟩ := takeNext_spec h.win (s.tbf.env prev prevEdge preempt)
  unfold DlData.Tbf.send
  rw [x1]
  cases r with
  | none =>
    dsimp only at x4 ⊢
    refine ⟨_, _, blks, rfl, ⟨x3, x2.trans h.wsz, h.store, h.mob, h.tx, h.good, h.user, h.fin⟩, by simp, fun i _ hg => hg, ?_, Or.inl ⟨rfl, rfl, rfl, ?_, ?_⟩⟩
    · intro hp; rw [DlData.Tbf.env, hp] at x4; simp at x4
    · intro _ hp; rw [DlData.Tbf.env, hp] at x4; simp at x4
    · intro _ hp; rw [DlData.Tbf.env, hp] at x4; simp at x4
  | some r =>
    obtain ⟨b, y⟩ := r
    -- a block from the store
    have old : ∀ (i : Nat), i < blks.length → blks.length ≤ i + ws → b = i % sns → RlcDl.Inv sns w a blks.length (Got sns s.mob) →
        RlcDl.Inv sns (w.markFirstSegment b) a blks.length (Got sns s.mob) →
        SysInv edge sns ws { s with tbf := { s.tbf with win := w }, mob := s.mob.radio edge sns ws heard (some (b, s.tbf.store (b % 1024))) } blks a ∧
        SysInv edge sns ws { s with tbf := { s.tbf with win := w.markFirstSegment b } } blks a ∧
        (∀ j, j < blks.length → Got sns s.mob j → Got sns (s.mob.radio edge sns ws heard (some (b, s.tbf.store (b % 1024)))) j) ∧
        (heard = true → Got sns (s.mob.radio edge sns ws heard (some (b, s.tbf.store (b % 1024)))) i) := by
      intro i hi hlo hb hw hw'
      have hk : blks[i]? = some blks[i] := List.getElem?_eq_getElem hi
      have hst := h.store i _ hk hlo
      have : s.tbf.store (b % 1024) = blks[i] := by rw [hb]; exact hst
      rw [this, hb]
      obtain ⟨r1, r2, r3⟩ := h.radio i _ hk hlo heard
      rw [hb] at hw'
      exact ⟨⟨Inv.mono hw r3, x2.trans h.wsz, h.store, r1, h.tx, h.good, h.user, h.fin⟩,
        ⟨hw', x2.trans h.wsz, h.store, h.mob, h.tx, h.good, h.user, h.fin⟩, r3, r2⟩
    -- a new block
    have new : ∀ (hb : b = blks.length % sns) (_ : blks.length < a + s.tbf.win.ws) (hw : RlcDl.Inv sns w a (blks.length + 1) (Got sns s.mob)),
        ∃ k l, createBlock edge n fin s.tbf.llc = some (k, l) ∧
          SysInv edge sns ws { s with tbf := { win := w, llc := l
                                               store := fun i => if i = b % 1024 then k else s.tbf.store i
                                               finished := decide (k.cv = 0) }
                                      mob := s.mob.radio edge sns ws heard (some (b, k)) } (blks ++ [k]) a ∧
          SysInv edge sns ws { s with tbf := { win := w.markFirstSegment b, llc := l
                                               store := fun i => if i = b % 1024 then k else s.tbf.store i
                                               finished := decide (k.cv = 0) } } (blks ++ [k]) a ∧
          (∀ j, j < blks.length → Got sns s.mob j → Got sns (s.mob.radio edge sns ws heard (some (b, k))) j) ∧
          (s.tbf.llc.pending ≠ [] → l.work < s.tbf.llc.work) ∧
          (heard = true → Got sns (s.mob.radio edge sns ws heard (some (b, k))) blks.length) := by
      intro hb hopen hw
      obtain ⟨k, l, m1, m2, m3⟩ := h.make n fin hn hok w hw (x2.trans h.wsz)
      have hk : (blks ++ [k])[blks.length]? = some k := by simp
      obtain ⟨r1, r2, r3⟩ := m2.radio blks.length k hk (by simp; omega) heard
      rw [hb]
      refine ⟨k, l, m1, ⟨Inv.mono m2.win r3, m2.wsz, m2.store, r1, m2.tx, m2.good, m2.user, m2.fin⟩,
        ⟨?_, m2.wsz, m2.store, m2.mob, m2.tx, m2.good, m2.user, m2.fin⟩, fun j hj hg => r3 j (by simp; omega) hg, m3, r2⟩
      exact m2.win.markUnacked blks.length h.win.le (by simp) .nacked (by simp) (by simp)
    cases y with
    | resend =>
      obtain ⟨i, i1, i2, i3, i4, i5, i6, i7⟩ := x4
      simp only [isNew, Bool.false_eq_true, if_false, Nat.add_zero] at x3
      have hm : RlcDl.Inv sns (w.markFirstSegment b) a blks.length (Got sns s.mob) := by
        unfold RlcDl.Win.markFirstSegment
        rw [i3]; exact x3.markUnacked i i1 i2 .nacked (by simp) (by simp)
      obtain ⟨o1, o2, o3, o4⟩ := old i i2 (by omega) i3 x3 hm
      dsimp only
      rw [if_neg (by simp)]
      refine ⟨_, _, blks, rfl, o1, fun b' k' hbk => ?_, o3, by simp, Or.inl ⟨rfl, rfl, rfl, fun _ _ _ hh => ⟨i, i1, i2, i5, o4 hh⟩, fun ha => by omega⟩⟩
      simp only [Option.some.injEq, Prod.mk.injEq] at hbk
      rw [← hbk.1]; exact o2
    | final =>
      obtain ⟨f1, f2, f3, f4⟩ := x4
      simp only [isNew, Bool.false_eq_true, if_false, Nat.add_zero] at x3
      have hpos := (h.fin f3).2
      have hb : b = (blks.length - 1) % sns := by
        rw [f2, show blks.length + sns - 1 = (blks.length - 1) + sns by omega, Nat.add_mod_right]
      have hm : RlcDl.Inv sns (w.markFirstSegment b) a blks.length (Got sns s.mob) := by
        unfold RlcDl.Win.markFirstSegment
        rw [f1] at x3 ⊢
        exact x3.outside b .nacked
      obtain ⟨o1, o2, o3, o4⟩ := old (blks.length - 1) (by omega) (by omega) hb x3 hm
      dsimp only
      rw [if_neg (by simp)]
      refine ⟨_, _, blks, rfl, o1, fun b' k' hbk => ?_, o3, by simp, Or.inl ⟨rfl, rfl, rfl, fun _ _ ha => by omega, fun _ _ => f3⟩⟩
      simp only [Option.some.injEq, Prod.mk.injEq] at hbk
      rw [← hbk.1]; exact o2
    | fresh =>
      obtain ⟨f1, f2, f3, f4, f5⟩ := x4
      simp only [isNew, if_true] at x3
      obtain ⟨k, l, n1, n2, n3, n4, n5, n6⟩ := new f1 f2 x3
      dsimp only
      rw [if_pos (Or.inl rfl), n1]
      refine ⟨_, _, blks ++ [k], rfl, n2, fun b' k' hbk => ?_, n4, by simp, Or.inr ⟨f3, ⟨k, rfl⟩, n5, fun m m1 m2 => (f4 m m1 m2).1, n6⟩⟩
      simp only [Option.some.injEq, Prod.mk.injEq] at hbk
      rw [← hbk.1]; exact n3
    | dummy =>
      obtain ⟨f1, f2, f3, f4, f5⟩ := x4
      simp only [isNew, if_true] at x3
      obtain ⟨k, l, n1, n2, n3, n4, n5, n6⟩ := new f1 f2 x3
      dsimp only
      rw [if_pos (Or.inr rfl), n1]
      refine ⟨_, _, blks ++ [k], rfl, n2, fun b' k' hbk => ?_, n4, by simp, Or.inr ⟨f3, ⟨k, rfl⟩, n5, fun m m1 m2 => (f4 m m1 m2).1, n6⟩⟩
      simp only [Option.some.injEq, Prod.mk.injEq] at hbk
      rw [← hbk.1]; exact n3

end

theorem cfg_window {edge : Bool} {sns ws : Nat} (h : LegalCfg edge sns ws) : RlcDl.LegalCfg sns ws := by
  unfold LegalCfg at h
  unfold RlcDl.LegalCfg
  cases edge
  · simp only [Bool.false_eq_true, if_false] at h; exact Or.inl h
  · simp only [if_true] at h; exact Or.inr h

theorem reach_inv {edge : Bool} {sns ws : Nat} (hc : LegalCfg edge sns ws) {ok : Nat → (Nat → Bool) → Llc → Prop}
    (hok : ∀ n fin l, ok n fin l → edge = false → (∃ k, fin k = true) → Seg.exactFit n 0 l.pending = false)
    {s : Sys} (h : Reach edge sns ws ok s) : ∃ blks a, SysInv edge sns ws s blks a := by
  induction h with
  | start =>
    refine ⟨[], 0, ?_, rfl, by simp, ⟨⟨by simp [Mob.init], by simp [Mob.init], rfl⟩, rfl⟩, rfl,
      ⟨by simp [Tbf.init], by simp [Tbf.init], by simp [Tbf.init], by simp [Tbf.init], by simp [Tbf.init], by simp [Tbf.init]⟩,
      rfl, by simp [Tbf.init]⟩
    exact { hsns := rfl, cfg := cfg_window hc, hs := by simp [Tbf.init, Win.init], ha := by simp [Tbf.init, Win.init], le := Nat.le_refl _,
            bound := by simp, valid := fun n n1 n2 => by simp at n2, head := fun h => by simp at h,
            ack := fun n n1 n2 => by simp at n2, old := fun n n1 => by omega }
  | step _ hst ih =>
    obtain ⟨blks, a, hi⟩ := ih
    cases hst with
    | give f hf => exact ⟨blks, a, give_inv hi f hf⟩
    | send prev prevEdge preempt n fin heard t r hn hk ht =>
      obtain ⟨t', r', blks', x1, x2, _⟩ := send_inv hi prev prevEdge preempt n fin heard hn (hok _ _ _ hk)
      rw [ht] at x1
      simp only [Option.some.injEq, Prod.mk.injEq] at x1
      obtain ⟨rfl, rfl⟩ := x1
      exact ⟨blks', a, x2⟩
    | half prev prevEdge preempt n fin t hn hk ht =>
      obtain ⟨t', r', blks', x1, x2, x3, _⟩ := send_inv hi prev prevEdge preempt n fin false hn (hok _ _ _ hk)
      unfold DlData.Tbf.sendHalf at ht
      rw [x1] at ht
      cases r' with
      | none =>
        simp only [Option.some.injEq] at ht
        subst ht
        exact ⟨blks', a, x2⟩
      | some bk =>
        obtain ⟨b, k⟩ := bk
        simp only [Option.some.injEq] at ht
        subst ht
        exact ⟨blks', a, x3 b k rfl⟩
    | ack bits ht =>
      obtain ⟨a', x1, _⟩ := ack_inv hi bits ht
      exact ⟨blks, a', x1⟩

/-! ### What was delivered -/

theorem isDummy (k : Nat) : IsDummy (Seg.dummyFrame k) := by
  refine ⟨3 + (min k 79 - 6), ?_⟩
  rw [← List.replicate_append_replicate]
  rfl

theorem withDummies (L : List (Bool × List Nat)) (h : ∀ x ∈ L, x.1 = true → ∃ k, x.2 = Seg.dummyFrame k) :
    WithDummies ((L.filter (fun x => !x.1)).map (·.2)) (L.map (·.2)) := by
  induction L with
  | nil => exact .nil
  | cons x L ih =>
    have ih := ih (fun y hy => h y (by simp [hy]))
    obtain ⟨d, f⟩ := x
    cases d
    · exact .user f _ _ ih
    · obtain ⟨k, hk⟩ := h (true, f) (by simp) rfl
      dsimp only at hk
      rw [hk]
      exact .dummy _ _ _ (isDummy k) ih

section

variable {edge : Bool} {sns ws : Nat} {s : Sys} {blks : List Block} {a : Nat}

theorem SysInv.delivered (h : SysInv edge sns ws s blks a) :
    ∃ sent, sent <+: s.given ∧ WithDummies sent s.mob.frames.out := by
  have h1 : s.mob.frames.out <+: s.tbf.llc.completed := by
    have := run_take edge blks s.mob.q
    rw [← h.mob.core.rx, h.tx] at this
    exact this
  have h2 : s.tbf.llc.completed <+: s.tbf.llc.loaded.map (·.2) := by
    unfold Seg.Llc.completed
    split
    · exact List.prefix_refl _
    · exact (List.dropLast_prefix _).map _
  obtain ⟨r, hr⟩ := h1.trans h2
  have hsplit : s.mob.frames.out = (s.tbf.llc.loaded.take s.mob.frames.out.length).map (·.2) := by
    rw [List.map_take, ← hr, List.take_left]
  refine ⟨((s.tbf.llc.loaded.take s.mob.frames.out.length).filter (fun x => !x.1)).map (·.2), ?_, ?_⟩
  · rw [← h.user]
    refine List.IsPrefix.trans ?_ (List.prefix_append _ _)
    exact (((List.take_prefix _ _).filter _).map _)
  · conv => rhs; rw [hsplit]
    exact withDummies _ (fun x hx => h.good.dum x (List.mem_of_mem_take hx))

theorem SysInv.complete (h : SysInv edge sns ws s blks a) (hq : s.mob.q = blks.length) (hc : s.tbf.llc.cur = []) :
    ∃ sent, s.given = sent ++ s.tbf.llc.queue ∧ WithDummies sent s.mob.frames.out ∧ s.mob.frames.acc = [] := by
  have h1 : s.mob.frames = run edge blks := by rw [h.mob.core.rx, hq, List.take_length]
  rw [h.tx, hc] at h1
  refine ⟨s.tbf.llc.userLoaded, h.user.symm, ?_, by rw [h1]; simp⟩
  have : s.mob.frames.out = s.tbf.llc.loaded.map (·.2) := by
    rw [h1]; unfold Seg.Llc.completed; rw [if_pos hc]
  rw [this]
  exact withDummies _ h.good.dum

theorem SysInv.empty (h : SysInv edge sns ws s blks a) (he : s.tbf.win.empty = true) : s.mob.q = blks.length := by
  have := h.win.empty_iff.1 he
  obtain ⟨q1, q2, q3⟩ := h.q
  omega

/-! ### Progress -/

open Classical in
/-- Blocks the mobile does not have. -/
noncomputable def miss (sns : Nat) (blks : List Block) (m : Mob) : Nat := (List.range blks.length).countP fun n => decide (¬ Got sns m n)

theorem miss_zero {sns : Nat} {blks : List Block} {m : Mob} (h : ∀ n, n < blks.length → Got sns m n) : miss sns blks m = 0 := by
  unfold miss
  rw [List.countP_eq_zero]
  intro n hn
  simp [h n (List.mem_range.1 hn)]

theorem got_of_miss {sns : Nat} {blks : List Block} {m : Mob} (h : miss sns blks m = 0) : ∀ n, n < blks.length → Got sns m n := by
  intro n hn
  unfold miss at h
  rw [List.countP_eq_zero] at h
  have := h n (List.mem_range.2 hn)
  simpa using this

theorem countP_lt {p q : Nat → Bool} {l : List Nat} (h : ∀ x ∈ l, q x = true → p x = true) (i : Nat) (hi : i ∈ l) (h1 : p i = true) (h2 : q i = false) :
    l.countP q < l.countP p := by
  induction l with
  | nil => simp at hi
  | cons x l ih =>
    rw [List.countP_cons, List.countP_cons]
    have hm : l.countP q ≤ l.countP p := List.countP_mono_left (fun y hy => h y (by simp [hy]))
    rcases List.mem_cons.1 hi with rfl | hi
    · rw [h1, h2]; simp; omega
    · have := ih (fun y hy => h y (by simp [hy])) hi
      have hx := h x (by simp)
      cases hq : q x
      · cases hp : p x <;> simp <;> omega
      · rw [hx hq]; simp; omega

theorem miss_lt {sns : Nat} {blks : List Block} {m m' : Mob} (h : ∀ n, n < blks.length → Got sns m n → Got sns m' n) (i : Nat)
    (hi : i < blks.length) (h1 : ¬ Got sns m i) (h2 : Got sns m' i) : miss sns blks m' < miss sns blks m := by
  unfold miss
  apply countP_lt (i := i)
  · intro x hx hq
    simp only [decide_eq_true_eq] at hq ⊢
    exact fun hg => hq (h x (List.mem_range.1 hx) hg)
  · exact List.mem_range.2 hi
  · simp [h1]
  · simp [h2]

open Classical in
theorem SysInv.miss_le (h : SysInv edge sns ws s blks a) : miss sns blks s.mob ≤ ws := by
  obtain ⟨q1, q2, q3⟩ := h.q
  unfold miss
  have hle := h.win.le
  have hsplit : List.range blks.length = List.range a ++ (List.range (blks.length - a)).map (a + ·) := by
    have := List.range_add (n := a) (m := blks.length - a)
    rw [← this, Nat.add_sub_cancel' hle]
  rw [hsplit, List.countP_append]
  have h0 : (List.range a).countP (fun n => decide (¬ Got sns s.mob n)) = 0 := by
    rw [List.countP_eq_zero]
    intro n hn
    simp [h.win.old n (List.mem_range.1 hn)]
  have h1 := List.countP_le_length (p := fun n => decide (¬ Got sns s.mob n)) (l := (List.range (blks.length - a)).map (a + ·))
  simp only [List.length_map, List.length_range] at h1
  omega

/-- What is left to be done. -/
noncomputable def todo (sns : Nat) (blks : List Block) (s : Sys) : Nat :=
  miss sns blks s.mob + if s.tbf.finished then 0 else s.tbf.llc.work

theorem SysInv.all (h : SysInv edge sns ws s blks a) (hall : ∀ n, n < blks.length → Got sns s.mob n) : s.mob.q = blks.length := by
  obtain ⟨q1, q2, q3⟩ := h.q
  rcases Nat.lt_or_ge s.mob.q blks.length with hlt | hge
  · rcases hall _ hlt with hg | hg
    · omega
    · rw [h.mob.head] at hg; cases hg
  · omega

theorem work_zero {l : Llc} (h : l.work = 0) : l.pending = [] := by
  unfold Seg.Llc.work at h
  rcases hp : l.pending with _ | ⟨x, xs⟩
  · rfl
  · rw [hp] at h; simp at h

theorem SysInv.done (h : SysInv edge sns ws s blks a) (h0 : todo sns blks s = 0) :
    ∃ sent, s.given = sent ++ (if s.tbf.finished then s.tbf.llc.queue else []) ∧ WithDummies sent s.mob.frames.out ∧ s.mob.frames.acc = [] := by
  unfold todo at h0
  have hq := h.all (got_of_miss (by omega))
  cases hf : s.tbf.finished
  · rw [hf] at h0
    simp only [Bool.false_eq_true, if_false] at h0 ⊢
    obtain ⟨c1, c2⟩ := Seg.pending_nil (work_zero (show s.tbf.llc.work = 0 by omega))
    have := h.complete hq c1
    rw [c2] at this
    exact this
  · simp only [if_true]
    exact h.complete hq (h.fin hf).1

theorem round_spec (h : SysInv edge sns ws s blks a) (preempt : Bool) (n : Nat) (hn : LegalLen edge n) (h0 : todo sns blks s ≠ 0) :
    ∃ t blks' a', round edge sns ws preempt n s = some t ∧ SysInv edge sns ws t blks' a' ∧ t.given = s.given ∧ todo sns blks' t < todo sns blks s := by
  obtain ⟨c1, c2, c3⟩ := h.cfg
  obtain ⟨q1, q2, q3⟩ := h.q
  have hd := h.win.distance
  unfold round
  generalize hbits : (List.range s.tbf.win.distance).map (fun j => s.mob.has sns ws ((s.tbf.win.va + j) % sns)) = bits
  have hlen : bits.length = blks.length - a := by rw [← hbits, List.length_map, List.length_range, hd]
  have hget : ∀ j, j < blks.length - a → bits[j]? = some (s.mob.has sns ws ((s.tbf.win.va + j) % sns)) := by
    intro j hj
    rw [← hbits, List.getElem?_map, List.getElem?_range (by omega)]
    rfl
  obtain ⟨a', x1, x2, x3⟩ := ack_inv h bits (by
    intro j hj hb
    rw [hget j (by omega)] at hb
    simpa using hb)
  -- every outstanding block the mobile does not have is marked
  have hbit : ∀ i, a ≤ i → i < blks.length → (bits[i - a]? = some true ↔ Got sns s.mob i) := by
    intro i i1 i2
    rw [hget (i - a) (by omega)]
    have e : (s.tbf.win.va + (i - a)) % sns = i % sns := by
      rw [h.win.ha, Nat.mod_add_mod, show a + (i - a) = i by omega]
    rw [e]
    unfold Mob.has
    have hw := inWindow_iff s.mob i c1 c2 (show i < s.mob.q + ws by omega) (by omega)
    unfold Got
    by_cases hge : s.mob.q ≤ i
    · rw [if_pos (hw.2 hge)]
      simp; omega
    · rw [if_neg (fun hh => hge (hw.1 hh))]
      simp; left; omega
  have hmark : ∀ i, a' ≤ i → i < blks.length → (s.tbf.rcvAck bits).win.vb (idx sns i) = .acked ∧ Got sns s.mob i ∨
      (s.tbf.rcvAck bits).win.vb (idx sns i) = .nacked ∧ ¬ Got sns s.mob i := by
    intro i i1 i2
    have hv := x3 i i1 i2 (by omega)
    by_cases hg : Got sns s.mob i
    · rw [if_pos ((hbit i (by omega) i2).2 hg)] at hv; exact Or.inl ⟨hv, hg⟩
    · rw [if_neg (fun hh => hg ((hbit i (by omega) i2).1 hh))] at hv; exact Or.inr ⟨hv, hg⟩
  obtain ⟨t, r, blks', y1, y2, _, y4, y5, y6⟩ := send_inv x1 none false preempt n (fun _ => false) true hn (by simp)
  dsimp only
  rw [y1]
  refine ⟨_, blks', a', rfl, y2, rfl, ?_⟩
  have hle := x1.win.le
  rcases y6 with ⟨rfl, z1, z2, z3, z4⟩ | ⟨z1, ⟨k, rfl⟩, z3, z4, z5⟩
  · rcases Nat.lt_or_ge a' blks'.length with hlt | hge
    · obtain ⟨i, i1, i2, i3, i4⟩ := z3 (fun m m1 m2 => by
        rcases hmark m m1 m2 with hh | hh
        · exact Or.inr hh.1
        · exact Or.inl hh.1) rfl hlt rfl
      have hng : ¬ Got sns s.mob i := by
        rcases hmark i i1 i2 with hh | hh
        · exact absurd hh.1 i3
        · exact hh.2
      have hlt := miss_lt (blks := blks') y4 i i2 hng i4
      unfold todo
      dsimp only
      rw [z1, z2]
      exact Nat.add_lt_add_right hlt _
    · exfalso
      have ha : a' = blks'.length := by omega
      have hf : s.tbf.finished = true := z4 ha rfl
      apply h0
      unfold todo
      rw [hf, miss_zero (fun i hi => x1.win.old i (by omega))]
      rfl
  · have hall : ∀ i, i < blks.length → Got sns s.mob i := by
      rcases Nat.lt_or_ge a' blks.length with hlt | hge
      · exfalso
        rcases hmark a' (Nat.le_refl _) hlt with hh | hh
        · exact x1.win.head hlt hh.1
        · exact z4 a' (Nat.le_refl _) hlt hh.1
      · exact fun i hi => x1.win.old i (by omega)
    have hm0 := miss_zero hall
    have hf : s.tbf.finished = false := z1
    have hm1 : miss sns (blks ++ [k]) (s.mob.radio edge sns ws true r) = 0 := by
      apply miss_zero
      intro i hi
      rw [List.length_append, List.length_singleton] at hi
      rcases Nat.lt_or_ge i blks.length with hlt | hge
      · exact y4 i hlt (hall i hlt)
      · have : i = blks.length := by omega
        rw [this]; exact z5 rfl
    unfold todo at h0 ⊢
    rw [hf, hm0] at h0 ⊢
    simp only [Bool.false_eq_true, if_false, Nat.zero_add] at h0 ⊢
    have hp : s.tbf.llc.pending ≠ [] := by
      intro hp
      apply h0
      unfold Seg.Llc.work
      rw [hp]; rfl
    have hw : t.llc.work < s.tbf.llc.work := z3 hp
    rw [hm1, Nat.zero_add]
    split <;> omega

theorem rounds_spec (preempt : Bool) : ∀ (ns : List Nat) (s : Sys) (blks : List Block) (a : Nat), SysInv edge sns ws s blks a →
    (∀ n ∈ ns, LegalLen edge n) → todo sns blks s ≤ ns.length →
    ∃ k t blks' a', k ≤ ns.length ∧ rounds edge sns ws preempt (ns.take k) s = some t ∧ SysInv edge sns ws t blks' a' ∧ t.given = s.given ∧
      todo sns blks' t = 0 := by
  intro ns
  induction ns with
  | nil => intro s blks a h _ h0; exact ⟨0, s, blks, a, Nat.le_refl _, rfl, h, rfl, by simpa using h0⟩
  | cons n ns ih =>
    intro s blks a h hl h0
    by_cases hz : todo sns blks s = 0
    · exact ⟨0, s, blks, a, Nat.zero_le _, rfl, h, rfl, hz⟩
    · obtain ⟨t, blks', a', r1, r2, r3, r4⟩ := round_spec h preempt n (hl n (by simp)) hz
      obtain ⟨k, u, b2, a2, k1, k2, k3, k4, k5⟩ := ih t blks' a' r2 (fun m hm => hl m (by simp [hm])) (by simp only [List.length_cons] at h0; omega)
      refine ⟨k + 1, u, b2, a2, by simp; omega, ?_, k3, k4.trans r3, k5⟩
      rw [List.take_succ_cons, rounds, r1]
      exact k2

end

end Verif.DlService
