import Verif.Lemmas.PcuIf
import Verif.Props.C20
/-!
C69: messages of the BTS are understood as it sent them.

`BtsMsg` (Spec/PcuIf): messages as the BTS writes them. `rx` (Model/PcuIf): a message arrives. What an INFO indication configures is the
subject of C70.
-/

namespace Verif.PcuIf

open BtsMsg
open Nacc (Key Cgi)

/-- The BTS with number `nr` as the PCU knows it. -/
def Known (s : St) (nr : Nat) (b : Bts) : Prop := s.get nr = some b

theorem Known.ensure {s : St} {nr : Nat} {b : Bts} (h : Known s nr b) : s.ensure nr = s := by
  unfold St.ensure; rw [show s.get nr = some b from h]

theorem Known.bts' {s : St} {nr : Nat} {b : Bts} (h : Known s nr b) : s.bts' nr = b := by
  unfold St.bts'; rw [show s.get nr = some b from h]; rfl

/-- The fields of a DATA indication. -/
theorem data_fields {d : Data} {body : List Nat} (h : d.Is body) : body.length = 180 ∧ u8 body 0 = d.sapi ∧ u8 body 1 = d.data.length ∧
    (slice body 2 162).take d.data.length = d.data ∧ u32 body 164 = d.fn ∧ u8 body 170 = d.trx ∧ u8 body 171 = d.ts ∧ u8 body 172 = d.blk ∧
    signed 8 (u8 body 173) = d.rssi ∧ u16 body 174 = d.ber10k ∧ signed 16 (u16 body 176) = d.ta ∧ signed 16 (u16 body 178) = d.lqual := by
  obtain ⟨fill, hf, hb⟩ := h.octets
  have hl := h.len
  generalize hX : le32 d.fn ++ le16 d.arfcn ++ [d.trx, d.ts, d.blk] ++ int8 d.rssi ++ le16 d.ber10k ++ int16 d.ta ++ int16 d.lqual = X at hb
  have hX' : X.length = 16 := by rw [← hX]; rfl
  have hb' : body = (d.sapi :: d.data.length :: (d.data ++ fill)) ++ X := by rw [hb]; rfl
  have h164 : (d.sapi :: d.data.length :: (d.data ++ fill)).length = 164 := by simp; omega
  have hs : slice body 2 162 = d.data ++ fill := by
    rw [hb', slice_left (by omega)]
    exact slice_all (by simp; omega)
  refine ⟨by rw [hb']; simp only [List.length_append, h164, hX'], by rw [hb]; rfl, by rw [hb]; rfl, ?_, ?_, ?_, ?_, ?_, ?_, ?_, ?_, ?_⟩
  · rw [hs, List.take_left' rfl]
  · rw [hb', show (164 : Nat) = 164 + 0 from rfl, u32_skip h164, ← hX]
    simp only [List.append_assoc]
    exact u32_le _ _
  · rw [hb', show (170 : Nat) = 164 + 6 from rfl, u8_skip h164, ← hX]; rfl
  · rw [hb', show (171 : Nat) = 164 + 7 from rfl, u8_skip h164, ← hX]; rfl
  · rw [hb', show (172 : Nat) = 164 + 8 from rfl, u8_skip h164, ← hX]; rfl
  · rw [hb', show (173 : Nat) = 164 + 9 from rfl, u8_skip h164, ← hX]; exact signed8 h.rssi
  · rw [hb', show (174 : Nat) = 164 + 10 from rfl, u16_skip h164, ← hX]
    exact u16_le d.ber10k []
  · rw [hb', show (176 : Nat) = 164 + 12 from rfl, u16_skip h164, ← hX]
    exact (congrArg (signed 16) (u16_le (d.ta % 65536).toNat [])).trans (signed16 h.ta)
  · rw [hb', show (178 : Nat) = 164 + 14 from rfl, u16_skip h164, ← hX]
    exact (congrArg (signed 16) (u16_le (d.lqual % 65536).toNat [])).trans (signed16 h.lqual)

theorem rx_data {e : Env} {s : St} {nr : Nat} {fill body : List Nat} {b : Bts} {d : Data} (hf : fill.length = 2) (hk : Known s nr b)
    (h : d.Is body) : rx e s (msg 0x02 nr fill body) = rxDataInd s nr b body := by
  rw [rx_msg _ _ _ _ _ _ hf, hk.ensure, hk.bts']
  dsimp only
  have hl := (data_fields h).1
  rw [if_pos rfl, check_ok hf (by omega), ← hl, List.take_length]

/-- A block received on a channel in use is handed on with its octets, frame number and measurements: BER in percent, link quality in
dB, each from the message. -/
theorem C69_block (e : Env) (s : St) (nr : Nat) (fill body : List Nat) (b : Bts) (d : Data) (hf : fill.length = 2) (hk : Known s nr b)
    (h : d.Is body) (hs : d.sapi = 5) (ht : d.trx < 8) (hts : d.ts < 8) (hfn : d.fn < 2715648) (hen : (b.pdch d.trx d.ts).enabled = true) :
    ∃ s', rx e s (msg 0x02 nr fill body) =
      .ok s' [.block nr d.trx d.ts d.data d.fn ⟨d.rssi, d.ber10k / 100, d.ta, d.lqual.tdiv 10⟩] true := by
  obtain ⟨h0, h1, h2, h3, h4, h5, h6, h7, h8, h9, h10, h11⟩ := data_fields h
  refine ⟨s.set nr { b with curFn := some d.fn }, ?_⟩
  rw [rx_data hf hk h]
  unfold rxDataInd
  dsimp only
  have := h.len
  have := h.ber
  rw [h1, hs, if_pos rfl, h5, h6, if_neg (by omega), h4, if_neg (by show ¬ d.fn ≥ 2715648; omega), hen, h2, if_neg (by decide),
    if_neg (by omega), h3, h8, h9, h10, h11, Nat.mod_eq_of_lt (show d.ber10k / 100 < 256 by omega)]

/-- A block received on a channel that is not in use is dropped. -/
theorem C69_block_unused (e : Env) (s : St) (nr : Nat) (fill body : List Nat) (b : Bts) (d : Data) (hf : fill.length = 2)
    (hk : Known s nr b) (h : d.Is body) (hs : d.sapi = 5) (ht : d.trx < 8) (hts : d.ts < 8) (hfn : d.fn < 2715648)
    (hen : (b.pdch d.trx d.ts).enabled = false) : ∃ s', rx e s (msg 0x02 nr fill body) = .ok s' [] false := by
  obtain ⟨h0, h1, h2, h3, h4, h5, h6, h7, h8, h9, h10, h11⟩ := data_fields h
  refine ⟨s.set nr { b with curFn := some d.fn }, ?_⟩
  rw [rx_data hf hk h]
  unfold rxDataInd
  dsimp only
  rw [h1, hs, if_pos rfl, h5, h6, if_neg (by omega), h4, if_neg (by show ¬ d.fn ≥ 2715648; omega), hen, if_pos (by decide)]

/-- The confirmation that a message was sent on PCH or AGCH is handed on with the identifier of the message. -/
theorem C69_confirm (e : Env) (s : St) (nr sapi id : Nat) (fill : List Nat) (b : Bts) (hf : fill.length = 2) (hk : Known s nr b)
    (hs : sapi = 8 ∨ sapi = 9) : rx e s (msg 0x11 nr fill (dataCnf sapi id)) = .ok s [.immAssCnf nr id] true := by
  rw [rx_msg _ _ _ _ _ _ hf, hk.ensure, hk.bts']
  dsimp only
  rw [if_neg (by decide), if_pos rfl, check_ok hf (Nat.le_refl 5)]
  unfold rxDataCnf
  rw [if_pos (by exact hs)]
  congr 2
  exact congrArg (Out.immAssCnf nr) (u32_le id [])

/-- A request to send on a channel in use is handed on; sent for a channel that is not in use or does not exist, it is ignored. -/
theorem C69_ready (e : Env) (s : St) (nr fn arfcn trx ts blk : Nat) (fill fill3 : List Nat) (b : Bts) (hf : fill.length = 2)
    (hf3 : fill3.length = 3) (hk : Known s nr b) :
    rx e s (msg 0x10 nr fill (rts 5 fn arfcn trx ts blk fill3)) =
      .ok s (if trx < 8 ∧ ts < 8 ∧ (b.pdch trx ts).enabled = true then [.rtsPdtch nr trx ts fn blk] else []) true ∧
    rx e s (msg 0x10 nr fill (rts 7 fn arfcn trx ts blk fill3)) =
      .ok s (if trx < 8 ∧ ts < 8 ∧ (b.pdch trx ts).enabled = true then [.rtsPtcch nr trx ts fn blk] else []) true := by
  have key : ∀ sapi, rx e s (msg 0x10 nr fill (rts sapi fn arfcn trx ts blk fill3)) = rxRts s nr b (rts sapi fn arfcn trx ts blk fill3) := by
    intro sapi
    have hl : (rts sapi fn arfcn trx ts blk fill3).length = 13 := by simp [rts, hf3, le32, le16]
    rw [rx_msg _ _ _ _ _ _ hf, hk.ensure, hk.bts']
    dsimp only
    rw [if_neg (by decide), if_neg (by decide), if_pos rfl, check_ok hf (by omega), ← hl, List.take_length]
  have h4 : ∀ sapi, (sapi :: fill3).length = 4 := fun _ => by simp [hf3]
  have hfn : ∀ sapi, u32 (rts sapi fn arfcn trx ts blk fill3) 4 = fn := by
    intro sapi
    show u32 ((sapi :: fill3) ++ _) (4 + 0) = fn
    rw [u32_skip (h4 sapi)]
    simp only [List.append_assoc]
    exact u32_le fn _
  have h8 : ∀ sapi k, u8 (rts sapi fn arfcn trx ts blk fill3) (4 + k) = u8 (le32 fn ++ le16 arfcn ++ [trx, ts, blk]) k := by
    intro sapi k
    exact u8_skip (h4 sapi) k
  have c : ∀ o, (if trx ≥ 8 ∨ ts ≥ 8 then Res.ok s [] true else if (!(b.pdch trx ts).enabled) = true then .ok s [] true else .ok s [o] true) =
      .ok s (if trx < 8 ∧ ts < 8 ∧ (b.pdch trx ts).enabled = true then [o] else []) true := by
    intro o
    by_cases h1 : trx ≥ 8 ∨ ts ≥ 8
    · rw [if_pos h1, if_neg (by omega)]
    · rw [if_neg h1]
      cases h2 : (b.pdch trx ts).enabled
      · rw [if_pos (by decide), if_neg (by simp)]
      · rw [if_neg (by decide), if_pos ⟨by omega, by omega, rfl⟩]
  refine ⟨?_, ?_⟩
  · rw [key]
    unfold rxRts
    dsimp only
    rw [show u8 (rts 5 fn arfcn trx ts blk fill3) 10 = trx from h8 5 6, show u8 (rts 5 fn arfcn trx ts blk fill3) 11 = ts from h8 5 7,
      show u8 (rts 5 fn arfcn trx ts blk fill3) 12 = blk from h8 5 8, hfn, show u8 (rts 5 fn arfcn trx ts blk fill3) 0 = 5 from rfl, if_pos rfl]
    exact c _
  · rw [key]
    unfold rxRts
    dsimp only
    rw [show u8 (rts 7 fn arfcn trx ts blk fill3) 10 = trx from h8 7 6, show u8 (rts 7 fn arfcn trx ts blk fill3) 11 = ts from h8 7 7,
      show u8 (rts 7 fn arfcn trx ts blk fill3) 12 = blk from h8 7 8, hfn, show u8 (rts 7 fn arfcn trx ts blk fill3) 0 = 7 from rfl, if_neg (by decide), if_pos rfl]
    exact c _

/-- A random access burst is handed on with the frame number it was received in, whether the BTS gives the full frame number or its
remainder modulo 42432, if it arrives within half that time (21216 frames, 98 s). -/
theorem C69_rach (e : Env) (s : St) (nr sapi ra fn arfcn is11 burst trx ts cur age : Nat) (qta : Int) (fill : List Nat) (b : Bts)
    (hf : fill.length = 2) (hk : Known s nr b) (hq : -32768 ≤ qta ∧ qta < 32768) (hfn : fn < 2715648) (hc : b.curFn = some cur)
    (hcur : cur < 2715648) (ha : age < 21216) (hm : fn % 42432 = (cur + 2715648 - age) % 2715648 % 42432) (hs : sapi = 1 ∨ sapi = 7) :
    ∃ r : Ra, rx e s (msg 0x22 nr fill (rach sapi ra qta fn arfcn is11 burst trx ts)) =
        .ok s [if sapi = 1 then .rach nr r else .ptcchRach nr r] true ∧
      r = ⟨burst, decide (is11 ≠ 0), ra, trx, ts, fn % 42432, (cur + 2715648 - age) % 2715648, qta⟩ := by
  refine ⟨_, ?_, rfl⟩
  rw [rx_msg _ _ _ _ _ _ hf, hk.ensure, hk.bts']
  dsimp only
  rw [if_neg (by decide), if_neg (by decide), if_neg (by decide), if_pos rfl, check_ok hf (Nat.le_refl 15)]
  show rxRach s nr b (rach sapi ra qta fn arfcn is11 burst trx ts) = _
  have h1 : u32 (rach sapi ra qta fn arfcn is11 burst trx ts) 5 = fn := by
    exact u32_le fn []
  have h2 : u16 (rach sapi ra qta fn arfcn is11 burst trx ts) 1 = ra := u16_le ra []
  have h3 : signed 16 (u16 (rach sapi ra qta fn arfcn is11 burst trx ts) 3) = qta :=
    (congrArg (signed 16) (u16_le (qta % 65536).toNat [])).trans (signed16 hq)
  have h4 : Fn.fn2rfn fn % 65536 = fn % 42432 := by
    show fn % 42432 % 65536 = fn % 42432
    omega
  have h5 : Fn.rfnToFn b.curFn (fn % 42432) = (cur + 2715648 - age) % 2715648 := by
    have h6 : Fn.fnSub cur age = (cur + 2715648 - age) % 2715648 := rfl
    have h7 := Fn.C20_rfn cur age hcur ha
    rw [h6] at h7
    rw [hc, hm]
    exact h7
  unfold rxRach
  dsimp only
  rw [h1, if_neg (by show ¬ fn > 2715648 - 1; omega), h2, h3, h4, h5]
  have h8 : u8 (rach sapi ra qta fn arfcn is11 burst trx ts) 0 = sapi := rfl
  have h9 : decide (u8 (rach sapi ra qta fn arfcn is11 burst trx ts) 11 > 0) = decide (is11 ≠ 0) :=
    decide_eq_decide.2 (show is11 > 0 ↔ is11 ≠ 0 by omega)
  rw [h8, h9]
  rcases hs with rfl | rfl
  · rw [if_pos rfl]; rfl
  · rw [if_neg (by decide), if_pos rfl]; rfl

/-- A paging request is handed on with the identity of the subscriber and the channel needed. -/
theorem C69_page (e : Env) (s : St) (nr sapi chan : Nat) (id fill fill2 : List Nat) (b : Bts) (hf : fill.length = 2) (hk : Known s nr b)
    (hid : id.length ≤ 8) (hf2 : fill2.length = 8 - id.length) :
    rx e s (msg 0x60 nr fill (page sapi chan id fill2)) = .ok s [.page nr chan id] true := by
  have hl : (page sapi chan id fill2).length = 11 := by simp [page, hf2]; omega
  rw [rx_msg _ _ _ _ _ _ hf, hk.ensure, hk.bts']
  dsimp only
  rw [if_neg (by decide), if_neg (by decide), if_neg (by decide), if_neg (by decide), if_neg (by decide), if_neg (by decide),
    if_neg (by decide), if_pos rfl, check_ok hf (by omega), ← hl, List.take_length]
  have h1 : u8 (page sapi chan id fill2) 2 = id.length := rfl
  have h2 : slice (page sapi chan id fill2) 3 id.length = id := by
    show slice ([sapi, chan, id.length] ++ (id ++ fill2)) (3 + 0) id.length = id
    rw [slice_right (n := 3) rfl, slice_here rfl]
  unfold rxPag
  dsimp only
  rw [h1, if_neg (by omega), h2]
  rfl

/-- A suspend request is handed on with the TLLI and routing area of the mobile. -/
theorem C69_suspend (e : Env) (s : St) (nr tlli cause : Nat) (ra fill : List Nat) (b : Bts) (hf : fill.length = 2) (hk : Known s nr b)
    (hra : ra.length = 6) : rx e s (msg 0x03 nr fill (suspend tlli ra cause)) = .ok s [.suspend nr tlli ra] true := by
  have hl : (suspend tlli ra cause).length = 11 := by simp [suspend, le32, hra]
  rw [rx_msg _ _ _ _ _ _ hf, hk.ensure, hk.bts']
  dsimp only
  rw [if_neg (by decide), if_neg (by decide), if_neg (by decide), if_neg (by decide), if_neg (by decide), if_neg (by decide),
    if_neg (by decide), if_neg (by decide), if_pos rfl, check_ok hf (by omega), ← hl, List.take_length]
  have h1 : u32 (suspend tlli ra cause) 0 = tlli := by
    unfold suspend; rw [List.append_assoc]; exact u32_le _ _
  have h2 : slice (suspend tlli ra cause) 4 6 = ra := by
    unfold suspend
    rw [List.append_assoc]
    show slice (le32 tlli ++ (ra ++ [cause])) (4 + 0) 6 = ra
    rw [slice_right (n := 4) rfl, slice_here hra]
  rw [h1, h2]

/-- Application information is handed on with its type and octets (the first `len` of the array given on). -/
theorem C69_app_info (e : Env) (s : St) (nr type : Nat) (data fill fill2 : List Nat) (b : Bts) (hf : fill.length = 2) (hk : Known s nr b)
    (hd : data.length ≤ 162) (hf2 : fill2.length = 162 - data.length) :
    ∃ buf, rx e s (msg 0x04 nr fill (appInfo type data fill2)) = .ok s [.appInfo nr type data.length buf] true ∧
      buf.take data.length = data := by
  have hl : (appInfo type data fill2).length = 164 := by simp [appInfo, hf2]; omega
  refine ⟨data ++ fill2, ?_, List.take_left' rfl⟩
  rw [rx_msg _ _ _ _ _ _ hf, hk.ensure, hk.bts']
  dsimp only
  rw [if_neg (by decide), if_neg (by decide), if_neg (by decide), if_neg (by decide), if_neg (by decide), if_neg (by decide),
    if_neg (by decide), if_neg (by decide), if_neg (by decide), if_pos rfl, check_ok hf (by omega), ← hl, List.take_length]
  have h2 : slice (appInfo type data fill2) 2 162 = data ++ fill2 := by
    show slice ([type, data.length] ++ (data ++ fill2)) (2 + 0) 162 = _
    rw [slice_right (n := 2) rfl]
    exact slice_all (by simp; omega)
  rw [h2]
  rfl

theorem be16_skip {a b : List Nat} {n : Nat} (h : a.length = n) (o : Nat) : be16 (a ++ b) (n + o) = be16 b o := by
  unfold be16; rw [u8_skip h, Nat.add_assoc, u8_skip h]

/-- The address of a neighbour cell, or that there is none, is handed on for the cell asked for. -/
theorem C69_neighbour (e : Env) (s : St) (nr err : Nat) (k : Key) (c : Option Cgi) (fill fill1 fill10 : List Nat) (b : Bts)
    (hf : fill.length = 2) (hf1 : fill1.length = 1) (hf10 : fill10.length = 10) (herr : err ≠ 0) (hk : Known s nr b) :
    rx e s (msg 0x80 nr fill (neighCnf k c err fill1 fill10)) = .ok s [.neigh nr k c] true := by
  generalize hB : neighBody k c err fill10 = B
  have hBl : B.length = 18 := by
    rw [← hB]
    cases c
    · simp [neighBody, net16, hf10]
    · simp [neighBody, net16]
  have hn : neighCnf k c err fill1 fill10 = 0x82 :: (fill1 ++ (net16 18 ++ B)) := by
    unfold neighCnf
    rw [hB, hBl]
  have hl : (neighCnf k c err fill1 fill10).length = 22 := by rw [hn]; simp [hf1, net16, hBl]
  rw [rx_msg _ _ _ _ _ _ hf, hk.ensure, hk.bts']
  dsimp only
  rw [if_neg (by decide), if_neg (by decide), if_neg (by decide), if_neg (by decide), if_neg (by decide), if_neg (by decide),
    if_neg (by decide), if_neg (by decide), if_neg (by decide), if_neg (by decide), if_neg (by decide), if_pos rfl,
    check_ok hf (by omega)]
  unfold rxContainer
  dsimp only
  obtain ⟨f, rfl⟩ : ∃ f, fill1 = [f] := by
    match fill1, hf1 with
    | [f], _ => exact ⟨f, rfl⟩
  have h1 : be16 ((neighCnf k c err [f] fill10).take 4) 2 = 18 := by rw [hn]; rfl
  have h2 : u8 ((neighCnf k c err [f] fill10).take 4) 0 = 0x82 := by rw [hn]; rfl
  rw [h1, if_neg (by rw [msg_length hf]; omega), h2, if_pos rfl, if_neg (by decide)]
  unfold cast
  rw [if_pos (by rw [msg_length hf]; omega)]
  have h3 : slice (msg 0x80 nr fill (neighCnf k c err [f] fill10)) 8 18 = B := by
    rw [hn]
    show slice ((0x80 :: nr :: fill) ++ ([0x82, f, 0, 18] ++ B)) (4 + (4 + 0)) 18 = B
    rw [slice_right (n := 4) (by simp [hf]), slice_right (n := 4) rfl, slice_all hBl]
  rw [h3]
  unfold rxNeigh
  dsimp only
  have hm : ∀ n : Nat, 256 * (n / 256) + n % 256 = n := fun n => by omega
  have hkey : (⟨be16 B 0, be16 B 2, be16 B 4, u8 B 6⟩ : Key) = k := by
    rw [← hB]
    show (⟨256 * (k.lac / 256) + k.lac % 256, 256 * (k.ci / 256) + k.ci % 256, 256 * (k.arfcn / 256) + k.arfcn % 256, k.bsic⟩ : Key) = k
    rw [hm, hm, hm]
  rw [hkey]
  cases c with
  | none =>
    have : u8 B 7 = err := by rw [← hB]; rfl
    rw [this, if_neg herr]
  | some c =>
    have : u8 B 7 = 0 := by rw [← hB]; rfl
    rw [this, if_pos rfl]
    have e1 : be16 B 8 = c.mcc := by rw [← hB]; exact hm _
    have e2 : be16 B 10 = c.mnc := by rw [← hB]; exact hm _
    have e3 : u8 B 12 = if c.mnc3 then 1 else 0 := by rw [← hB]; rfl
    have e4 : be16 B 13 = c.lac := by rw [← hB]; exact hm _
    have e5 : u8 B 15 = c.rac := by rw [← hB]; rfl
    have e6 : be16 B 16 = c.ci := by rw [← hB]; exact hm _
    have e7 : decide (u8 B 12 ≠ 0) = c.mnc3 := by
      rw [e3]; cases c.mnc3 <;> rfl
    rw [e1, e2, e4, e5, e6, e7]

/-- E1 connections of time slots, from the indications: the last one for each time slot of each BTS. -/
def E1Last (l : List (Nat × Nat × Nat × Nat × Nat × Nat)) (bts trx ts : Nat) : Option (Nat × Nat × Nat) :=
  (l.reverse.find? fun x => x.1 = bts ∧ x.2.1 = trx ∧ x.2.2.1 = ts).map fun x => x.2.2.2

theorem e1Get_set (n : E1) (bts trx ts : Nat) : ∀ l, (e1Get l n.bts n.trx n.ts).isSome →
    e1Get (e1Set n l) bts trx ts = if n.bts = bts ∧ n.trx = trx ∧ n.ts = ts then some (n.line, n.e1ts, n.ss) else e1Get l bts trx ts
  | [], h => by simp [e1Get] at h
  | x :: l, h => by
    unfold e1Set
    by_cases hx : x.bts = n.bts ∧ x.trx = n.trx ∧ x.ts = n.ts
    · rw [if_pos hx]
      obtain ⟨h1, h2, h3⟩ := hx
      unfold e1Get
      by_cases hn : n.bts = bts ∧ n.trx = trx ∧ n.ts = ts
      · simp [hn]
      · simp only [List.find?_cons, h1, h2, h3, hn, decide_false, if_false]
    · rw [if_neg hx]
      have ih := e1Get_set n bts trx ts l (by
        unfold e1Get at h ⊢
        simpa only [List.find?_cons, hx, decide_false] using h)
      unfold e1Get at ih ⊢
      by_cases hn : x.bts = bts ∧ x.trx = trx ∧ x.ts = ts
      · simp only [List.find?_cons, hn, and_self, decide_true]
        rw [if_neg (by rintro ⟨rfl, rfl, rfl⟩; exact hx ⟨hn.1, hn.2.1, hn.2.2⟩)]
      · simp only [List.find?_cons, hn, decide_false]
        exact ih

/-- The E1 connection of a time slot is the one the BTS last gave for it, for all histories of indications. -/
theorem C69_e1 (e : Env) (bts trx ts : Nat) : ∀ (l : List (Nat × Nat × Nat × Nat × Nat × Nat)) (fills : List (List Nat)),
    fills.length = l.length → (∀ f ∈ fills, f.length = 2) →
    ∃ s o, run e {} ((l.zip fills).map fun x => msg 0x33 x.1.1 x.2 (e1Ccu x.1.2.1 x.1.2.2.1 x.1.2.2.2.1 x.1.2.2.2.2.1 x.1.2.2.2.2.2)) = some (s, o) ∧
      e1Get s.e1 bts trx ts = E1Last l bts trx ts := by
  have key : ∀ (l : List (Nat × Nat × Nat × Nat × Nat × Nat)) (fills : List (List Nat)) (s : St),
      fills.length = l.length → (∀ f ∈ fills, f.length = 2) →
      ∃ s' o, run e s ((l.zip fills).map fun x => msg 0x33 x.1.1 x.2 (e1Ccu x.1.2.1 x.1.2.2.1 x.1.2.2.2.1 x.1.2.2.2.2.1 x.1.2.2.2.2.2)) = some (s', o) ∧
        e1Get s'.e1 bts trx ts = (E1Last l bts trx ts).or (e1Get s.e1 bts trx ts) := by
    intro l
    induction l with
    | nil => intro fills s _ _; exact ⟨s, [], by simp [run], by simp [E1Last]⟩
    | cons x l ih =>
      intro fills s hl hf
      match fills, hl with
      | f :: fills, hl =>
        have h1 : rx e s (msg 0x33 x.1 f (e1Ccu x.2.1 x.2.2.1 x.2.2.2.1 x.2.2.2.2.1 x.2.2.2.2.2)) =
            rxE1 (s.ensure x.1) x.1 (e1Ccu x.2.1 x.2.2.1 x.2.2.2.1 x.2.2.2.2.1 x.2.2.2.2.2) := by
          rw [rx_msg _ _ _ _ _ _ (hf f List.mem_cons_self)]
          dsimp only
          rw [if_neg (by decide), if_neg (by decide), if_neg (by decide), if_neg (by decide), if_neg (by decide), if_pos rfl,
            check_ok (hf f List.mem_cons_self) (Nat.le_refl 5)]
          rfl
        let n : E1 := ⟨x.1, x.2.1, x.2.2.1, x.2.2.2.1, x.2.2.2.2.1, x.2.2.2.2.2⟩
        let s1 : St := { s.ensure x.1 with e1 := if (e1Get (s.ensure x.1).e1 n.bts n.trx n.ts).isSome then e1Set n (s.ensure x.1).e1 else n :: (s.ensure x.1).e1 }
        have h2 : rx e s (msg 0x33 x.1 f (e1Ccu x.2.1 x.2.2.1 x.2.2.2.1 x.2.2.2.2.1 x.2.2.2.2.2)) = .ok s1 [] true := h1
        have h3 : (s.ensure x.1).e1 = s.e1 := by unfold St.ensure; split <;> rfl
        have h4 : e1Get s1.e1 bts trx ts = if n.bts = bts ∧ n.trx = trx ∧ n.ts = ts then some (n.line, n.e1ts, n.ss) else e1Get s.e1 bts trx ts := by
          show e1Get (if (e1Get (s.ensure x.1).e1 n.bts n.trx n.ts).isSome then e1Set n (s.ensure x.1).e1 else n :: (s.ensure x.1).e1) bts trx ts = _
          rw [h3]
          by_cases h : (e1Get s.e1 n.bts n.trx n.ts).isSome
          · rw [if_pos h]; exact e1Get_set n bts trx ts s.e1 h
          · rw [if_neg h]
            by_cases hn : n.bts = bts ∧ n.trx = trx ∧ n.ts = ts
            · rw [if_pos hn]; unfold e1Get; simp [hn]
            · rw [if_neg hn]; unfold e1Get; simp only [List.find?_cons, hn, decide_false]
        obtain ⟨s', o, r1, r2⟩ := ih fills s1 (by simpa using hl) (fun f' hf' => hf f' (List.mem_cons_of_mem _ hf'))
        refine ⟨s', o, ?_, ?_⟩
        · rw [List.zip_cons_cons, List.map_cons, run]
          dsimp only
          rw [h2]
          dsimp only
          rw [r1]
          rfl
        · rw [r2, h4]
          unfold E1Last
          rw [List.reverse_cons, List.find?_append]
          cases h : List.find? (fun x => decide (x.1 = bts ∧ x.2.1 = trx ∧ x.2.2.1 = ts)) l.reverse
          · by_cases hn : x.1 = bts ∧ x.2.1 = trx ∧ x.2.2.1 = ts
            · rw [if_pos hn]; simp [hn, n]
            · rw [if_neg hn]; simp only [Option.none_or, List.find?_cons, hn, decide_false, List.find?_nil, Option.map_none]
          · simp
  intro l fills hl hf
  obtain ⟨s, o, h1, h2⟩ := key l fills {} hl hf
  exact ⟨s, o, h1, by rw [h2]; simp [e1Get]⟩

/-! ### The hypotheses can be met -/

/-- A BTS with time slot 6 of its first TRX in use, at frame 1000. -/
def inUse : St := { bts := [(0, { curFn := some 1000, pdch := fun trx ts => { enabled := trx == 0 && ts == 6 } })] }

/-- A block of 23 octets. -/
def block23 : Data := ⟨5, List.replicate 23 0x2b, 1003, 871, 0, 6, 1, -70, 120, -3, 155⟩

example : ∃ s', rx {} inUse (msg 0x02 0 [0, 0] (5 :: 23 :: (List.replicate 23 0x2b ++ List.replicate 139 0 ++
    (le32 1003 ++ le16 871 ++ [0, 6, 1] ++ int8 (-70) ++ le16 120 ++ int16 (-3) ++ int16 155)))) =
    .ok s' [.block 0 0 6 (List.replicate 23 0x2b) 1003 ⟨-70, 1, -3, 15⟩] true :=
  C69_block {} inUse 0 [0, 0] _ _ block23 rfl rfl
    ⟨by decide, by decide, by decide, by decide, by decide, by decide, List.replicate 139 0, by simp [block23], rfl⟩ rfl (by decide) (by decide) (by decide) rfl

example : ∃ r : Ra, rx {} inUse (msg 0x22 0 [0, 0] (rach 1 0x78 12 900 871 0 0 0 0)) = .ok inUse [.rach 0 r] true ∧
    r = ⟨0, false, 0x78, 0, 0, 900, 900, 12⟩ :=
  C69_rach {} inUse 0 1 0x78 900 871 0 0 0 0 1000 100 12 [0, 0] _ rfl rfl (by decide) (by decide) rfl (by decide) (by decide) (by decide) (.inl rfl)

example : rx {} inUse (msg 0x80 0 [0, 0] (neighCnf ⟨1, 2, 871, 63⟩ (some ⟨1, 1, false, 300, 7, 4⟩) 1 [0] (List.replicate 10 0))) =
    .ok inUse [.neigh 0 ⟨1, 2, 871, 63⟩ (some ⟨1, 1, false, 300, 7, 4⟩)] true :=
  C69_neighbour {} inUse 0 1 _ _ [0, 0] [0] _ _ rfl rfl rfl (by decide) rfl

/-- An indication for a time slot replaces the earlier one. -/
example : E1Last [(0, 0, 1, 1, 2, 0), (0, 0, 2, 1, 3, 0), (0, 0, 1, 1, 4, 5)] 0 0 1 = some (1, 4, 5) := by decide

end Verif.PcuIf
