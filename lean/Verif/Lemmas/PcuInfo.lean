import Verif.Lemmas.PcuIf
/-!
# Fields of an INFO indication
-/

namespace Verif.PcuIf

open BtsMsg

/-- The NS-VC of the specification as the model has it. -/
def vcOf (v : Vc) : Nsvc := ⟨v.v6, v.ip, v.lport, v.rport, v.nsvci⟩

theorem trx_length {t : Trx} {x : List Nat} (h : t.Is x) : x.length = 112 := by
  obtain ⟨_, _, mask, spare, ts, h1, h2, _, _, rfl⟩ := h
  have := flatten_length ts h2
  simp only [List.length_append, le16_length, List.length_cons, List.length_nil, this, h1]

theorem chan_fields {c : Chan} {x : List Nat} (h : c.Is x) : u8 x 0 = c.tsc ∧
    (c.hop = none → u8 x 1 = 0) ∧
    (∀ h, c.hop = some h → u8 x 1 ≠ 0 ∧ u8 x 2 = h.hsn ∧ u8 x 3 = h.maio ∧ u8 x 4 = h.bits ∧ h.bits ≤ 64 ∧
      h.ma.length = (h.bits + 7) / 8 ∧ slice (slice x 5 8) (8 - (h.bits + 7) / 8) ((h.bits + 7) / 8) = h.ma) := by
  cases h with
  | plain tsc fill hf => exact ⟨rfl, fun _ => rfl, fun h e => by simp at e⟩
  | hopping tsc y hp fill hy hb hm hl =>
    refine ⟨rfl, fun e => by simp at e, ?_⟩
    intro h e
    obtain rfl : hp = h := by simpa using e
    refine ⟨by show y ≠ 0; omega, rfl, rfl, rfl, hb, hm, ?_⟩
    have h1 : slice ([tsc, y, hp.hsn, hp.maio, hp.bits] ++ fill ++ hp.ma) 5 8 = fill ++ hp.ma := by
      rw [List.append_assoc, show (5 : Nat) = 5 + 0 from rfl, slice_right (n := 5) rfl]
      exact slice_all (by simp; omega)
    rw [h1, ← hm, show 8 - hp.ma.length = fill.length + 0 by omega, slice_right rfl]
    exact slice_all rfl

/-- What is read from an INFO indication. -/
structure Fields (a : Info) (v : List Nat) : Prop where
  version : u32 v 0 = 12
  flags : u32 v 4 = 1 + 65536 * a.cs + 1048576 * a.mcs
  trx : ∀ (i : Nat) t, a.trx[i]? = some t → ∃ x, t.Is x ∧ ∀ k < 112, u8 v (8 + (112 * i + k)) = u8 x k
  bsic : u8 v 904 = a.bsic
  cgi : cgiOf v = a.cgi
  nsei : u16 v 914 = a.nsei
  bvci : u16 v 939 = a.bvci
  t3142 : u8 v 941 = a.t3142
  t3169 : u8 v 942 = a.t3169
  t3191 : u8 v 943 = a.t3191
  t3193 : u8 v 944 = a.t3193
  t3195 : u8 v 945 = a.t3195
  n3101 : u8 v 946 = a.n3101
  n3103 : u8 v 947 = a.n3103
  n3105 : u8 v 948 = a.n3105
  initCs : u8 v 954 = a.initCs
  initMcs : u8 v 955 = a.initMcs
  vc0 : nsvc v 0 = a.vcs.1.map vcOf
  vc1 : nsvc v 1 = a.vcs.2.map vcOf
  model : u8 v 1002 = a.model

theorem vc_length {v : Option Vc} {ty l r n : Nat} {ip : List Nat} (h : VcIs v ty ip l r n) : ip.length = 16 := by
  cases h with
  | v4 ip fill _ _ _ h1 h2 => simp [h1, h2]
  | v6 _ _ _ _ h => exact h
  | none _ _ _ _ _ _ _ h => exact h

theorem nsvc_of {v : Option Vc} {ty l r n : Nat} {ip : List Nat} (h : VcIs v ty ip l r n) (o : List Nat) (i : Nat)
    (h1 : u8 o (968 + i) = ty) (h2 : slice o (970 + 16 * i) 16 = ip) (h3 : u16 o (960 + 2 * i) = l) (h4 : u16 o (964 + 2 * i) = r)
    (h5 : u16 o (956 + 2 * i) = n) : nsvc o i = v.map vcOf := by
  unfold nsvc
  dsimp only
  rw [h1, h3, h4, h5]
  cases h with
  | v4 ip fill _ _ _ a1 a2 =>
    have h6 : slice o (970 + 16 * i) 4 = ip := by
      have : (slice o (970 + 16 * i) 16).take 4 = slice o (970 + 16 * i) 4 := by unfold slice; rw [List.take_take]; rfl
      rw [← this, h2, List.take_left' a1]
    rw [if_pos rfl, h6]; rfl
  | v6 _ _ _ _ h => rw [if_neg (by decide), if_pos rfl, h2]; rfl
  | none _ _ _ _ _ a1 a2 h => rw [if_neg a1, if_neg a2]; rfl

theorem u16_at {a b : List Nat} {n o : Nat} (x : Nat) (h : a.length = o) (hn : n = o) : u16 (a ++ (le16 x ++ b)) n = x := by
  subst hn
  exact (u16_skip h 0).trans (u16_le x b)

/-- The octets up to the last field. -/
theorem info_fields {a : Info} {body : List Nat} (h : a.Is body) : body.length ≥ 1003 ∧ Fields a (body.take 1003) := by
  obtain ⟨trx, tm, rep, cv, ip0, ip1, rest, ty0, ty1, l0, l1, r0, r1, n0, n1, h1, h2, h3, h4, h5, v0, v1, h6, hb⟩ := h.octets
  have hx : ∀ x ∈ trx, x.length = 112 := by
    intro x hx
    obtain ⟨i, hi, rfl⟩ := List.mem_iff_getElem.1 hx
    have : i < a.trx.length := by rw [h.ntrx]; omega
    exact trx_length (h2 i _ _ (List.getElem?_eq_getElem this) (List.getElem?_eq_getElem hi))
  have hfl : trx.flatten.length = 896 := by rw [flatten_length trx hx, h1]
  let H := le32 12 ++ le32 (1 + 65536 * a.cs + 1048576 * a.mcs)
  let A := [a.bsic] ++ le16 a.cgi.mcc ++ le16 a.cgi.mnc ++ [if a.cgi.mnc3 then 1 else 0] ++ le16 a.cgi.lac ++ le16 a.cgi.rac ++ le16 a.nsei
  let T := [a.t3142, a.t3169, a.t3191, a.t3193, a.t3195, a.n3101, a.n3103, a.n3105]
  let N := [a.initCs, a.initMcs] ++ le16 n0 ++ le16 n1 ++ le16 l0 ++ le16 l1 ++ le16 r0 ++ le16 r1 ++ [ty0, ty1]
  let B := H ++ (trx.flatten ++ (A ++ (tm ++ (le16 a.cgi.ci ++ (rep ++ (le16 a.bvci ++ (T ++ (cv ++ (N ++ (ip0 ++ (ip1 ++ [a.model])))))))))))
  have hip0 := vc_length v0
  have hip1 := vc_length v1
  have hH : H.length = 8 := rfl
  have hA : A.length = 12 := rfl
  have hT : T.length = 8 := rfl
  have hN : N.length = 16 := rfl
  have hB : B.length = 1003 := by
    simp only [B, List.length_append, hH, hA, hT, hN, hfl, h3, h4, h5, hip0, hip1, le16_length, List.length_cons, List.length_nil]
  have hbody : body = B ++ rest := by
    rw [hb]
    simp only [B, H, A, T, N, List.append_assoc]
  refine ⟨by rw [hbody, List.length_append]; omega, ?_⟩
  rw [hbody, List.take_left' hB]
  -- offsets
  have o1 : ∀ k, u8 B (904 + k) = u8 (A ++ (tm ++ (le16 a.cgi.ci ++ (rep ++ (le16 a.bvci ++ (T ++ (cv ++ (N ++ (ip0 ++ (ip1 ++ [a.model])))))))))) k := by
    intro k
    rw [show 904 + k = 8 + (896 + k) by omega, u8_skip hH, u8_skip hfl]
  have o2 : ∀ k, u8 B (934 + k) = u8 (le16 a.cgi.ci ++ (rep ++ (le16 a.bvci ++ (T ++ (cv ++ (N ++ (ip0 ++ (ip1 ++ [a.model])))))))) k := by
    intro k
    rw [show 934 + k = 904 + (12 + (18 + k)) by omega, o1, u8_skip hA, u8_skip h3]
  have o3 : ∀ k, u8 B (939 + k) = u8 (le16 a.bvci ++ (T ++ (cv ++ (N ++ (ip0 ++ (ip1 ++ [a.model])))))) k := by
    intro k
    rw [show 939 + k = 934 + (2 + (3 + k)) by omega, o2, u8_skip (le16_length _), u8_skip h4]
  have o4 : ∀ k, u8 B (941 + k) = u8 (T ++ (cv ++ (N ++ (ip0 ++ (ip1 ++ [a.model]))))) k := by
    intro k
    rw [show 941 + k = 939 + (2 + k) by omega, o3, u8_skip (le16_length _)]
  have o5 : ∀ k, u8 B (954 + k) = u8 (N ++ (ip0 ++ (ip1 ++ [a.model]))) k := by
    intro k
    rw [show 954 + k = 941 + (8 + (5 + k)) by omega, o4, u8_skip hT, u8_skip h5]
  have o6 : ∀ k, u8 B (970 + k) = u8 (ip0 ++ (ip1 ++ [a.model])) k := by
    intro k
    rw [show 970 + k = 954 + (16 + k) by omega, o5, u8_skip hN]
  have hip : ∀ k, k < 16 → u8 B (970 + k) = u8 ip0 k := fun k hk => by rw [o6, u8_left (by omega)]
  have hip' : ∀ k, k < 16 → u8 B (986 + k) = u8 ip1 k := fun k hk => by
    rw [show 986 + k = 970 + (16 + k) by omega, o6, u8_skip hip0, u8_left (by omega)]
  have hs : ∀ (ip : List Nat) o, ip.length = 16 → o + 16 ≤ 1003 → (∀ k, k < 16 → u8 B (o + k) = u8 ip k) → slice B o 16 = ip := by
    intro ip o hl ho hk
    rw [slice_eq_map (by omega), ← slice_all hl, slice_eq_map (by omega)]
    apply List.map_congr_left
    intro k hk'
    rw [List.mem_range] at hk'
    rw [hk k hk', Nat.zero_add]
  have r16 : ∀ o x y n, u8 B o = x % 256 → u8 B (o + 1) = x / 256 → n = x → y = o → u16 B y = n := by
    rintro o x _ _ e1 e2 rfl rfl
    unfold u16; rw [e1, e2]; omega
  have hm : ∀ n : Nat, n % 256 + 256 * (n / 256) = n := fun n => by omega
  refine { version := rfl, flags := ?_, trx := ?_, bsic := o1 0, cgi := ?_, nsei := ?_, bvci := ?_, t3142 := o4 0, t3169 := o4 1, t3191 := o4 2
           t3193 := o4 3, t3195 := o4 4, n3101 := o4 5, n3103 := o4 6, n3105 := o4 7, initCs := o5 0, initMcs := o5 1, vc0 := ?_, vc1 := ?_
           model := ?_ }
  · exact u32_le (1 + 65536 * a.cs + 1048576 * a.mcs) []
  · intro i t ht
    have hi : i < 8 := by
      have := (List.getElem?_eq_some_iff.1 ht).1
      rw [h.ntrx] at this; exact this
    have hx' := List.getElem?_eq_getElem (show i < trx.length by omega)
    refine ⟨trx[i], h2 i _ _ ht hx', ?_⟩
    intro k hk
    show u8 (H ++ (trx.flatten ++ _)) (8 + (112 * i + k)) = _
    rw [u8_skip hH, u8_left (by rw [hfl]; omega)]
    exact u8_flatten trx hx i k _ hx' hk
  · have e1 : u16 B 905 = a.cgi.mcc := r16 905 _ _ _ (o1 1) (o1 2) rfl rfl
    have e2 : u16 B 907 = a.cgi.mnc := r16 907 _ _ _ (o1 3) (o1 4) rfl rfl
    have e3 : u8 B 909 = if a.cgi.mnc3 then 1 else 0 := o1 5
    have e4 : u16 B 910 = a.cgi.lac := r16 910 _ _ _ (o1 6) (o1 7) rfl rfl
    have e5 : u16 B 912 = a.cgi.rac := r16 912 _ _ _ (o1 8) (o1 9) rfl rfl
    have e6 : u16 B 934 = a.cgi.ci := r16 934 _ _ _ (o2 0) (o2 1) rfl rfl
    have e7 : decide (u8 B 909 ≠ 0) = a.cgi.mnc3 := by rw [e3]; cases a.cgi.mnc3 <;> rfl
    unfold cgiOf
    rw [e1, e2, e4, e5, e6, e7, Nat.mod_eq_of_lt h.cgi.2.2.2.1]
  · exact r16 914 _ _ _ (o1 10) (o1 11) rfl rfl
  · exact r16 939 _ _ _ (o3 0) (o3 1) rfl rfl
  · exact nsvc_of v0 B 0 (o5 14) (hs ip0 970 hip0 (by omega) hip) (r16 960 _ _ _ (o5 6) (o5 7) rfl rfl) (r16 964 _ _ _ (o5 10) (o5 11) rfl rfl)
      (r16 956 _ _ _ (o5 2) (o5 3) rfl rfl)
  · exact nsvc_of v1 B 1 (o5 15) (hs ip1 986 hip1 (by omega) hip') (r16 962 _ _ _ (o5 8) (o5 9) rfl rfl) (r16 966 _ _ _ (o5 12) (o5 13) rfl rfl)
      (r16 958 _ _ _ (o5 4) (o5 5) rfl rfl)
  · rw [show (1002 : Nat) = 970 + (16 + (16 + 0)) from rfl, o6, u8_skip hip0, u8_skip hip1]; rfl

theorem slice_of_u8 {v x : List Nat} {o p n : Nat} (hv : o + n ≤ v.length) (hx : p + n ≤ x.length) (h : ∀ k < n, u8 v (o + k) = u8 x (p + k)) :
    slice v o n = slice x p n := by
  rw [slice_eq_map hv, slice_eq_map hx]
  apply List.map_congr_left
  intro k hk
  exact h k (List.mem_range.1 hk)

/-- The TRXs: ARFCN, which time slots are used and how. -/
theorem trx_fields {a : Info} {v : List Nat} (h : a.trx.length = 8) (hv : v.length = 1003) (f : Fields a v) (i : Nat) (hi : i < 8) :
    trxHlayer1 v i = 0 ∧ (∀ t, a.trx[i]? = some t → trxArfcn v i = t.arfcn) ∧
    (∀ ts, ts < 8 → (trxMask v i).testBit ts = (a.chan i ts).isSome) ∧
    (∀ ts c, ts < 8 → a.chan i ts = some c → (tsInfo v i ts).tsc = c.tsc ∧ (c.hop = none → (tsInfo v i ts).hopping = 0) ∧
      (∀ h, c.hop = some h → (tsInfo v i ts).hopping ≠ 0 ∧ (tsInfo v i ts).hsn = h.hsn ∧ (tsInfo v i ts).maio = h.maio ∧
        (tsInfo v i ts).maBitLen = h.bits ∧ h.bits ≤ 64 ∧ h.ma.length = (h.bits + 7) / 8 ∧
        slice (tsInfo v i ts).ma (8 - (h.bits + 7) / 8) ((h.bits + 7) / 8) = h.ma)) := by
  have ht := List.getElem?_eq_getElem (show i < a.trx.length by omega)
  obtain ⟨x, hx, hk⟩ := f.trx i _ ht
  have hx' := hx
  obtain ⟨g1, g2, mask, spare, tss, g3, g4, g5, g6, g7⟩ := hx'
  have hxl := trx_length hx
  have hu : ∀ k, k < 112 → u8 v (8 + 112 * i + k) = u8 x k := fun k hk' => by rw [Nat.add_assoc]; exact hk k hk'
  have hc : ∀ ts, a.chan i ts = (a.trx[i].chans[ts]?).getD none := by
    intro ts; unfold Info.chan; rw [ht]; rfl
  have h0 : u8 v (8 + 112 * i) = u8 x 0 := hu 0 (by omega)
  have h1 : u8 v (8 + 112 * i + 1) = u8 x 1 := hu 1 (by omega)
  have h4 : u8 v (8 + 112 * i + 4) = u8 x 4 := hu 4 (by omega)
  have h5 : u8 v (8 + 112 * i + 4 + 1) = u8 x 5 := hu 5 (by omega)
  have h6 : u8 v (8 + 112 * i + 4 + 2) = u8 x 6 := hu 6 (by omega)
  have h7 : u8 v (8 + 112 * i + 4 + 2 + 1) = u8 x 7 := hu 7 (by omega)
  refine ⟨?_, ?_, ?_, ?_⟩
  · unfold trxHlayer1 u32 u16
    rw [h4, h5, h6, h7, g7]
    rfl
  · intro t ht'
    rw [ht] at ht'
    obtain rfl : a.trx[i] = t := by simpa using ht'
    unfold trxArfcn u16
    rw [h0, h1, g7]
    show a.trx[i].arfcn % 256 + 256 * (a.trx[i].arfcn / 256) = _
    omega
  · intro ts hts
    unfold trxMask
    rw [hu 2 (by omega), g7, hc ts]
    exact g5 ts hts
  · intro ts c hts hcc
    have hcc' : a.trx[i].chans[ts]? = some (some c) := by
      rw [hc] at hcc
      rw [List.getElem?_eq_getElem (by omega)] at hcc ⊢
      exact congrArg some hcc
    have hy := List.getElem?_eq_getElem (show ts < tss.length by omega)
    have hch := chan_fields (g6 ts c _ hcc' hy)
    have hyl : tss[ts].length = 13 := g4 _ (List.getElem_mem _)
    have hu' : ∀ k, k < 13 → u8 v (16 + 112 * i + 13 * ts + k) = u8 tss[ts] k := by
      intro k hk'
      rw [show 16 + 112 * i + 13 * ts + k = 8 + 112 * i + (8 + (13 * ts + k)) by omega, hu _ (by omega), g7]
      have : (le16 a.trx[i].arfcn ++ [mask, spare, 0, 0, 0, 0]).length = 8 := rfl
      rw [u8_skip this]
      exact u8_flatten tss g4 ts k _ hy hk'
    have e0 : (tsInfo v i ts).tsc = u8 tss[ts] 0 := hu' 0 (by omega)
    have e1 : (tsInfo v i ts).hopping = u8 tss[ts] 1 := hu' 1 (by omega)
    have e2 : (tsInfo v i ts).hsn = u8 tss[ts] 2 := hu' 2 (by omega)
    have e3 : (tsInfo v i ts).maio = u8 tss[ts] 3 := hu' 3 (by omega)
    have e4 : (tsInfo v i ts).maBitLen = u8 tss[ts] 4 := hu' 4 (by omega)
    have e5 : (tsInfo v i ts).ma = slice tss[ts] 5 8 := by
      apply slice_of_u8
      · omega
      · omega
      · intro k hk'
        rw [Nat.add_assoc]
        exact hu' (5 + k) (by omega)
    rw [e0, e1, e2, e3, e4, e5]
    exact hch

end Verif.PcuIf
