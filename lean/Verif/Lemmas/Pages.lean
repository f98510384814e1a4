/-
Page reads and page writes.
-/
import Verif.Lemmas.RegWrite

namespace Vscp
open M Spec

/-- The effect of a register read. -/
theorem readRegister_effect (c : Ctx) (page : U16) (addr : U8) (w : W) : ∃ t,
    (Core.readRegister c page addr w).2 =
      { w with v := { w.v with alarm := if page = 0 ∧ addr = 0x80 then 0 else w.v.alarm }, out := w.out ++ t } ∧
    frames t = [] ∧
    appReads t = if appServed c page addr then [(page, addr, (Core.readRegister c page addr w).1)] else [] := by
  cases h : appServed c page addr with
  | false =>
    refine ⟨[], ?_, rfl, rfl⟩
    rw [not_appServed h, alarmRead]
    split <;> simp
  | true =>
    have hn : ¬(page = 0 ∧ addr = 0x80) := fun e => (appServed_iff.1 h).1 ⟨e.1, by rw [e.2]; decide⟩
    rw [appServed_run h, if_neg hn]
    exact ⟨[_], rfl, rfl, rfl⟩

theorem Values.nil (c : Ctx) (page : U16) (w : W) : Values c page w [] [] [] := ⟨rfl, by simp, rfl⟩

theorem Values.cons {c : Ctx} {page : U16} {w w' : W} {a : U8} {as vs : List U8} {rs : List (U16 × U8 × U8)}
    (h : Values c page w' as vs rs) (hs : Same w w') (ha : a ∉ as)
    (hal : w'.v.alarm = if page = 0 ∧ a = 0x80 then 0 else w.v.alarm) :
    Values c page w (a :: as) ((Core.readRegister c page a w).1 :: vs)
      ((if appServed c page a then [(page, a, (Core.readRegister c page a w).1)] else []) ++ rs) := by
  refine ⟨by simp [h.length], ?_, ?_⟩
  · intro x hx hn
    rw [List.zip_cons_cons, List.mem_cons] at hx
    rcases hx with rfl | hx
    · rfl
    · rw [h.kept x hx hn]
      refine readRegister_same hn hs ?_
      intro hp hx8
      rw [hal, if_neg]
      rintro ⟨_, rfl⟩
      exact ha (hx8 ▸ (List.of_mem_zip hx).1)
  · rw [h.app, List.zip_cons_cons, List.filter_cons]
    cases appServed c page a <;> rfl

/-! ### Page read -/

/-- Payloads sent by the loop, and the bytes left. -/
def pagePure : List U8 → List U8 → List (List U8) × List U8
  | [], acc => ([], acc)
  | v :: vs, acc =>
    if 8 ≤ (acc ++ [v]).length then
      let r := pagePure vs [acc.headD 0 + 1]
      ((acc ++ [v]) :: r.1, r.2)
    else pagePure vs (acc ++ [v])

theorem pagePure_full {acc : List U8} {v : U8} (h : 8 ≤ (acc ++ [v]).length) (vs : List U8) :
    pagePure (v :: vs) acc = ((acc ++ [v]) :: (pagePure vs [acc.headD 0 + 1]).1, (pagePure vs [acc.headD 0 + 1]).2) := by
  rw [pagePure, if_pos h]
theorem pagePure_more {acc : List U8} {v : U8} (h : ¬ 8 ≤ (acc ++ [v]).length) (vs : List U8) :
    pagePure (v :: vs) acc = pagePure vs (acc ++ [v]) := by
  rw [pagePure, if_neg h]

theorem alarm_aux (p : Prop) [Decidable p] (a al : U8) (as : List U8) :
    (if p ∧ 0x80 ∈ as then (0 : U8) else if p ∧ a = 0x80 then 0 else al) = if p ∧ 0x80 ∈ a :: as then 0 else al := by
  by_cases hp : p <;> by_cases h1 : a = 0x80 <;> by_cases h2 : (0x80 : U8) ∈ as
  all_goals simp only [hp, h1, h2, List.mem_cons, true_and, false_and, or_true, if_true, if_false, or_false]
  rw [if_neg]; exact fun e => h1 e.symm

/-- All payloads of a page read response, starting with the given number. -/
def chunks (seq : U8) (l : List U8) : List (List U8) :=
  if h : l = [] then [] else (seq :: l.take 7) :: chunks (seq + 1) (l.drop 7)
termination_by l.length
decreasing_by
  have : 0 < l.length := List.length_pos_iff.2 h
  simp only [List.length_drop]; omega

theorem chunks_nil (seq : U8) : chunks seq [] = [] := by rw [chunks]; simp
theorem chunks_ne {seq : U8} {l : List U8} (h : l ≠ []) : chunks seq l = (seq :: l.take 7) :: chunks (seq + 1) (l.drop 7) := by
  rw [chunks]; simp [h]

/-- The last payload, if there are registers left. -/
def lastPart (acc : List U8) : List (List U8) := if 1 < acc.length then [acc] else []

theorem pagePure_chunks (vs pre : List U8) (seq : U8) (hp : pre.length < 7) :
    (pagePure vs (seq :: pre)).1 ++ lastPart (pagePure vs (seq :: pre)).2 =
      chunks seq (pre ++ vs) := by
  induction vs generalizing pre seq with
  | nil =>
    unfold pagePure
    cases pre with
    | nil => simp [chunks_nil, lastPart]
    | cons a pre =>
      rw [chunks_ne (by simp), List.append_nil, List.take_of_length_le (by omega), List.drop_of_length_le (by omega), chunks_nil]
      simp [lastPart]
  | cons v vs ih =>
    by_cases h : 8 ≤ ((seq :: pre) ++ [v]).length
    · rw [pagePure_full h]
      have hl : pre.length = 6 := by simp at h; omega
      have h2 := ih [] (seq + 1) (by simp)
      simp only [List.nil_append] at h2
      simp only [List.headD_cons]
      rw [List.cons_append, h2, chunks_ne (l := pre ++ v :: vs) (by simp)]
      have e : pre ++ v :: vs = (pre ++ [v]) ++ vs := by simp
      rw [e, List.take_left' (by simp [hl]), List.drop_left' (by simp [hl])]
      simp
    · rw [pagePure_more h]
      have h2 := ih (pre ++ [v]) seq (by simp at h ⊢; omega)
      rw [List.cons_append, h2]
      simp

theorem chunks_numbered (l : List U8) (k : Nat) (h : 7 * k ≤ l.length) :
    chunks (BitVec.ofNat 8 k) (l.drop (7 * k)) =
      (List.range ((l.length - 7 * k + 6) / 7)).map fun i => numbered l (k + i) := by
  generalize hn : l.length - 7 * k = n
  induction n using Nat.strongRecOn generalizing k with
  | ind n ih =>
    by_cases hz : n = 0
    · rw [List.drop_of_length_le (by omega), chunks_nil, hz]; rfl
    · rw [chunks_ne (by rw [ne_eq, List.drop_eq_nil_iff]; omega), List.drop_drop]
      have e : (n + 6) / 7 = ((n - 7) + 6) / 7 + 1 := by omega
      rw [e, List.range_succ_eq_map, List.map_cons, List.map_map]
      congr 1
      by_cases h7 : n < 7
      · have : (n - 7 + 6) / 7 = 0 := by omega
        rw [this, List.drop_of_length_le (by omega), chunks_nil]; rfl
      · have := ih (n - 7) (by omega) (k + 1) (by omega) (by omega)
        rw [show 7 * k + 7 = 7 * (k + 1) from by omega,
          show BitVec.ofNat 8 k + 1 = BitVec.ofNat 8 (k + 1) from by
            apply BitVec.eq_of_toNat_eq; simp [BitVec.toNat_add], this]
        apply List.map_congr_left
        intro i _
        simp only [Function.comp]
        congr 1
        omega

/-- The world after reads and transmissions. -/
def readFrame (w : W) (al txErr : U8) (t : List Out) : W :=
  { w with v := { w.v with alarm := al }, tp := { w.tp with txErr := txErr }, out := w.out ++ t }

theorem pageReadLoop_run (c : Ctx) (addr : U8) (n index : Nat) (acc : List U8) (ha : acc.length < 8) (hi : index + n ≤ 256)
    (w : W) : ∃ t vs txErr,
    Core.pageReadLoop c addr n index acc w = ((pagePure vs acc).2,
      readFrame w (if w.v.page = 0 ∧ 0x80 ∈ addresses (addr + BitVec.ofNat 8 index) n then 0 else w.v.alarm) txErr t) ∧
    frames t = (pagePure vs acc).1.map (event c w.v.nick 3 26) ∧
    Values c w.v.page w (addresses (addr + BitVec.ofNat 8 index) n) vs (appReads t) := by
  induction n generalizing index acc w with
  | zero =>
    refine ⟨[], [], w.tp.txErr, ?_, rfl, Values.nil _ _ _⟩
    simp [Core.pageReadLoop, addresses, readFrame, pagePure]
  | succ n ih =>
    unfold Core.pageReadLoop
    rw [bind_run, get_run]
    simp only
    rw [bind_run]
    obtain ⟨t1, h1, hf1, hr1⟩ := readRegister_effect c w.v.page (addr + BitVec.ofNat 8 index) w
    rw [h1]
    generalize hv : (Core.readRegister c w.v.page (addr + BitVec.ofNat 8 index) w).1 = v at hr1
    have hadd : addresses (addr + BitVec.ofNat 8 index) (n + 1) =
        (addr + BitVec.ofNat 8 index) :: addresses (addr + BitVec.ofNat 8 (index + 1)) n := by
      unfold addresses
      rw [List.range_succ_eq_map, List.map_cons, List.map_map]
      congr 1
      · simp
      · apply List.map_congr_left
        intro i _
        simp only [Function.comp]
        apply BitVec.eq_of_toNat_eq
        simp [BitVec.toNat_add]
        omega
    have hnm : addr + BitVec.ofNat 8 index ∉ addresses (addr + BitVec.ofNat 8 (index + 1)) n := by
      intro hm
      simp only [addresses, List.mem_map, List.mem_range] at hm
      obtain ⟨i, hin, e⟩ := hm
      have e' := congrArg BitVec.toNat e
      simp [BitVec.toNat_add] at e'
      omega
    rw [hadd]
    by_cases h8 : 8 ≤ (acc ++ [v]).length
    · rw [if_pos h8, bind_run, txVoid_run _ _ _ _ (by simp at h8 ⊢; omega)]
      simp only
      generalize hw1 : sent c _ _ = w1
      have hw1v : w1.v = { w.v with alarm := if w.v.page = 0 ∧ addr + BitVec.ofNat 8 index = 0x80 then 0 else w.v.alarm } := by
        rw [← hw1]; simp
      obtain ⟨t, vs, e, h2, hf2, hd2⟩ := ih (index + 1) [acc.headD 0 + 1] (by simp) (by omega) w1
      have hpg : w1.v.page = w.v.page := by rw [hw1v]
      have hs : Same w w1 := ⟨by rw [hw1v], by rw [hw1v], by rw [← hw1]; simp, by rw [← hw1]; simp⟩
      rw [hpg] at h2 hd2
      have hd := Values.cons hd2 hs hnm (by rw [hw1v])
      rw [hv] at hd
      refine ⟨t1 ++ [.tx (event c w.v.nick 3 26 (acc ++ [v])) (c.txOk (w.out ++ t1).length)] ++ t, v :: vs, e, ?_, ?_, ?_⟩
      · rw [h2]
        rw [pagePure_full h8, ← hw1]
        unfold readFrame
        rw [sent, Transport.countErr_eq]
        simp only [List.append_assoc, ← alarm_aux]
      · rw [frames_append, frames_append, hf1, hf2]
        rw [pagePure_full h8]
        simp [frames, hw1v]
      · rw [appReads_append, appReads_append, hr1]
        simpa [appReads] using hd
    · rw [if_neg h8]
      generalize hw1 : W.mk _ _ _ _ _ _ _ _ = w1
      have hw1v : w1.v = { w.v with alarm := if w.v.page = 0 ∧ addr + BitVec.ofNat 8 index = 0x80 then 0 else w.v.alarm } := by
        rw [← hw1]
      obtain ⟨t, vs, e, h2, hf2, hd2⟩ := ih (index + 1) (acc ++ [v]) (by simp at h8 ⊢; omega) (by omega) w1
      have hpg : w1.v.page = w.v.page := by rw [hw1v]
      have hs : Same w w1 := ⟨by rw [hw1v], by rw [hw1v], by rw [← hw1], by rw [← hw1]⟩
      rw [hpg] at h2 hd2
      have hd := Values.cons hd2 hs hnm (by rw [hw1v])
      rw [hv] at hd
      refine ⟨t1 ++ t, v :: vs, e, ?_, ?_, ?_⟩
      · rw [h2]
        rw [pagePure_more h8, ← hw1]
        unfold readFrame
        simp only [List.append_assoc, ← alarm_aux]
      · rw [frames_append, hf1, hf2]
        rw [pagePure_more h8]
        simp [hw1v]
      · rw [appReads_append, hr1]
        simpa [appReads] using hd

/-! ### Page writes -/

theorem writeIdx_v (a s i : Nat) (v : U8) (w : W) : (Ps.writeIdx a s i v w).2.v = w.v := by
  unfold Ps.writeIdx; simp only [ite_run]; split <;> rfl

theorem dmWrite_v (c : Ctx) (page : U16) (addr v : U8) (w : W) : (Dm.writeRegister c page addr v w).2.v = w.v := by
  unfold Dm.writeRegister
  simp only [ite_run]
  split
  · unfold Dm.writeRegisterPaged
    simp only [ite_run, bind_run, get_run, pure_run, whenM_run, modify_run]
    repeat' split
    all_goals first | rfl | exact writeIdx_v _ _ _ _ _
  · unfold Dm.writeRegisterStd
    cases Dm.calculateMatrixIndex c page addr with
    | some x => simp only; rw [bind_run, Ps.readDm, readIdx_snd]; exact writeIdx_v _ _ _ _ _
    | none => rfl

theorem ngWrite_v (c : Ctx) (page : U16) (addr v : U8) (w : W) : (DmNg.writeRegister c page addr v w).2.v = w.v := by
  unfold DmNg.writeRegister
  simp only [ite_run]
  split
  · rw [bind_run, Ps.readDmNg, readIdx_snd]; exact writeIdx_v _ _ _ _ _
  · rfl

/-- Writes to registers other than the VSCP registers change no variable of the core. -/
theorem writeRegister_v {c : Ctx} {w : W} {page : U16} {addr v : U8} (h : ¬(page = 0 ∧ 0x80 ≤ addr.toNat)) :
    (Core.writeRegister c page addr v w).2.v = w.v := by
  cases ha : accepted c w page addr with
  | false => rw [writeRegister_rejected ha]
  | true =>
    rw [writeRegister_outer h ha]
    simp only [ite_run]
    split
    · exact dmWrite_v _ _ _ _ _
    · split
      · exact ngWrite_v _ _ _ _ _
      · simp only [Core.appWriteRegister, bind_run, get_run, emit_run, pure_run, Writes.writeAll _ _]; rfl

/-- A write keeps the page select registers, if it does not write them. -/
theorem writeRegister_page {c : Ctx} {w : W} {addr v : U8} (h : w.v.page = 0 → addr ≠ 0x92 ∧ addr ≠ 0x93) :
    (Core.writeRegister c w.v.page addr v w).2.v.page = w.v.page := by
  by_cases hv : w.v.page = 0 ∧ 0x80 ≤ addr.toNat
  · obtain ⟨h1, h2⟩ := h hv.1
    have h1' : ¬ addr.toNat = 0x92 := fun e => h1 (BitVec.eq_of_toNat_eq e)
    have h2' : ¬ addr.toNat = 0x93 := fun e => h2 (BitVec.eq_of_toNat_eq e)
    unfold Core.writeRegister
    rw [if_pos ⟨hv.1, hv.2, by have := addr.isLt; omega⟩]
    unfold Core.writeVscpRegister
    simp only [ite_run]
    rw [if_neg h1', if_neg h2']
    split
    · rfl
    · split
      · simp only [bind_run, Ps.readUserId, Ps.writeUserId, readIdx_snd, pure_run, writeIdx_v]
      · split
        · simp only [bind_run, pure_run]
          unfold Core.writeRestoreStdCfg
          simp only [bind_run, timerRunning_run, ite_run, timerStart_run, timerStop_run, restore_run, pure_run]
          split
          · split <;> rfl
          · split
            · exact hv.1.symm
            · rfl
        · rfl
  · rw [writeRegister_v hv]

/-- Registers and values of a page write. -/
def writeList (m : Msg) (k : Nat) (addr : U8) (index n : Nat) : List (U8 × U8) :=
  (List.range' index n).map fun i => (addr + BitVec.ofNat 8 i, m.data.toList.getD (k + i) 0)

theorem dataAt_run (m : Msg) (i : Nat) (h : i < 8) (w : W) : dataAt m i w = (m.data.toList.getD i 0, w) := by
  unfold dataAt
  rw [Vector.getElem?_eq_getElem h]
  simp [List.getD, h]

theorem extWriteLoop_run (c : Ctx) (m : Msg) (page : U16) (addr : U8) (n index : Nat) (acc : List U8) (h : 4 + index + n ≤ 8)
    (w : W) : Core.extWriteLoop c m page addr n index acc w =
      (acc ++ (writeRegs c page (writeList m 4 addr index n) w).1, (writeRegs c page (writeList m 4 addr index n) w).2) := by
  induction n generalizing index acc w with
  | zero => simp [Core.extWriteLoop, writeList, writeRegs]
  | succ n ih =>
    unfold Core.extWriteLoop
    rw [bind_run, dataAt_run m _ (by omega)]
    simp only [bind_run]
    rw [ih _ _ (by omega)]
    simp only [writeList, List.range'_succ, List.map_cons, writeRegs, List.append_assoc, List.cons_append, List.nil_append]

theorem pageWriteLoop_run (c : Ctx) (m : Msg) (addr : U8) (n index : Nat) (acc : List U8) (h : 2 + index + n ≤ 8)
    (w : W) (hp : w.v.page = 0 → ∀ x ∈ writeList m 2 addr index n, x.1 ≠ 0x92 ∧ x.1 ≠ 0x93) :
    Core.pageWriteLoop c m addr n index acc w =
      (acc ++ (writeRegs c w.v.page (writeList m 2 addr index n) w).1, (writeRegs c w.v.page (writeList m 2 addr index n) w).2) := by
  induction n generalizing index acc w with
  | zero => simp [Core.pageWriteLoop, writeList, writeRegs]
  | succ n ih =>
    unfold Core.pageWriteLoop
    rw [bind_run, get_run]
    simp only
    rw [bind_run, dataAt_run m _ (by omega)]
    simp only [bind_run]
    have hc : writeList m 2 addr index (n + 1) =
        (addr + BitVec.ofNat 8 index, m.data.toList.getD (2 + index) 0) :: writeList m 2 addr (index + 1) n := by
      simp only [writeList, List.range'_succ, List.map_cons]
    have hpg := writeRegister_page (c := c) (w := w) (addr := addr + BitVec.ofNat 8 index) (v := m.data.toList.getD (2 + index) 0)
      (fun h0 => hp h0 _ (by rw [hc]; exact List.mem_cons_self ..))
    rw [ih _ _ (by omega) _ (fun h0 x hx => hp (hpg ▸ h0) x (by rw [hc]; exact List.mem_cons_of_mem _ hx)), hpg, hc]
    simp only [writeRegs, List.append_assoc, List.cons_append, List.nil_append]

theorem writeRegs_length (c : Ctx) (page : U16) (l : List (U8 × U8)) (w : W) : (writeRegs c page l w).1.length = l.length := by
  induction l generalizing w with
  | nil => rfl
  | cons x l ih => simp [writeRegs, ih]

theorem writeRegs_quiet (c : Ctx) (page : U16) (l : List (U8 × U8)) (w : W) :
    ∃ t, (writeRegs c page l w).2.out = w.out ++ t ∧ frames t = [] := by
  induction l generalizing w with
  | nil => exact ⟨[], by simp [writeRegs], rfl⟩
  | cons x l ih =>
    obtain ⟨t, h1, h2⟩ := writeRegister_quiet c page x.1 x.2 w
    obtain ⟨t', h3, h4⟩ := ih (Core.writeRegister c page x.1 x.2 w).2
    exact ⟨t ++ t', by rw [writeRegs]; simp only; rw [h3, h1, List.append_assoc], by rw [frames_append, h2, h4]; rfl⟩

theorem txFrom_run (c : Ctx) (nick prio typ : U8) (l : List U8) (hl : l.length ≤ 8) (w : W) :
    Core.txFrom c nick prio typ l w = ((), sent c (event c nick prio typ l) w) := by
  have hs : (BitVec.ofNat 8 l.length).toNat ≤ 8 := by simp only [BitVec.toNat_ofNat]; omega
  unfold Core.txFrom
  rw [bind_run, Transport.writeMessage_run, if_neg (fun h => h.2 hs)]
  have hb : Transport.beforeTx c ⟨prio, Transport.CLASS_PROTOCOL, typ, nick, c.hardCoded,
      BitVec.ofNat 8 l.length, bytes8 l⟩ w = w := by
    unfold Transport.beforeTx
    rw [if_neg]
    exact fun h => h.2.1 rfl
  rw [hb]
  rfl

/-- The list of a request: the data bytes are the given ones. -/
theorem writeList_request {m : Msg} {typ : U8} {hd vs : List U8} (hm : Request m typ (hd ++ vs)) (h8 : (hd ++ vs).length ≤ 8)
    (addr : U8) (n : Nat) (hn : n ≤ vs.length) : writeList m hd.length addr 0 n = (addresses addr n).zip (vs.take n) := by
  apply List.ext_getElem
  · simp [writeList, addresses]; omega
  · intro i h1 h2
    have hi : i < n := by simpa [writeList] using h1
    have := hm.at (hd.length + i) (by simp; omega) h8
    simp only [writeList, List.getElem_map, List.getElem_range', addresses, List.getElem_zip, List.getElem_range,
      List.getElem_take]
    have hd8 : hd.length + i < 8 := by simp at h8; omega
    simp [List.getD, hd8, this]

end Vscp
