/-
Extended page reads.
-/
import Verif.Lemmas.Pages
import Verif.Spec.Stream

namespace Vscp
open M Spec

theorem addresses_succ (addr : U8) (n : Nat) : addresses addr (n + 1) = addr :: addresses (addr + 1) n := by
  unfold addresses
  rw [List.range_succ_eq_map, List.map_cons, List.map_map]
  congr 1
  · simp
  · apply List.map_congr_left
    intro i _
    simp only [Function.comp]
    apply BitVec.eq_of_toNat_eq
    simp [BitVec.toNat_add]
    omega

theorem not_mem_addresses (addr : U8) (n : Nat) (h : n < 256) : addr ∉ addresses (addr + 1) n := by
  simp only [addresses, List.mem_map, List.mem_range, not_exists, not_and]
  intro i hi e
  have := congrArg BitVec.toNat e
  simp only [BitVec.toNat_add, BitVec.toNat_ofNat] at this
  have := addr.isLt
  simp at *
  omega

/-- Number of registers in a response. -/
def chunk (k : Nat) (addr : U8) (count : U16) : Nat := min k (min count.toNat (256 - addr.toNat))

theorem extReadLoop_run (c : Ctx) (page : U16) (k : Nat) (addr : U8) (count : U16) (acc : List U8) (hk : 1 ≤ k)
    (hc : 1 ≤ count.toNat) (w : W) : ∃ t vs,
    Core.extReadLoop c page k addr count acc w =
      ((acc ++ vs, if addr.toNat + chunk k addr count = 256 then 0xFF else addr + BitVec.ofNat 8 (chunk k addr count),
        count - BitVec.ofNat 16 (chunk k addr count), decide (addr.toNat + chunk k addr count = 256)),
       { w with v := { w.v with alarm := if page = 0 ∧ 0x80 ∈ addresses addr (chunk k addr count) then 0 else w.v.alarm },
                out := w.out ++ t }) ∧
    frames t = [] ∧ Values c page w (addresses addr (chunk k addr count)) vs (appReads t) := by
  induction k generalizing addr count acc w with
  | zero => omega
  | succ k ih =>
    unfold Core.extReadLoop
    rw [bind_run]
    obtain ⟨t1, h1, hf1, hr1⟩ := readRegister_effect c page addr w
    rw [h1]
    generalize hv : (Core.readRegister c page addr w).1 = v at hr1
    dsimp only
    have ha := addr.isLt
    have hct := count.isLt
    have hcm : (count - 1).toNat = count.toNat - 1 := by
      rw [BitVec.toNat_sub]; simp; omega
    by_cases hff : addr.toNat < 0xFF
    · have hd : decide (¬addr.toNat < 0xFF) = false := by simp [hff]
      have ha1 : (addr + 1).toNat = addr.toNat + 1 := by
        rw [BitVec.toNat_add]; simp; omega
      rw [hd, if_pos hff]
      by_cases hgo : 0 < k ∧ 0 < (count - 1).toNat
      · rw [if_pos ⟨hgo.1, hgo.2, rfl⟩]
        have hch : chunk (k + 1) addr count = chunk k (addr + 1) (count - 1) + 1 := by
          unfold chunk; rw [hcm, ha1]; omega
        obtain ⟨t2, vs, h2, hf2, hd2⟩ := ih (addr + 1) (count - 1) (acc ++ [v]) hgo.1 hgo.2
          { w with v := { w.v with alarm := if page = 0 ∧ addr = 0x80 then 0 else w.v.alarm }, out := w.out ++ t1 }
        rw [h2]
        have hc4 : chunk k (addr + 1) (count - 1) < 256 := by unfold chunk; rw [ha1]; omega
        generalize chunk k (addr + 1) (count - 1) = n at *
        have hval := Values.cons (a := addr) (w := w) hd2 ⟨rfl, rfl, rfl, rfl⟩ (not_mem_addresses addr n hc4) rfl
        rw [← addresses_succ] at hval
        refine ⟨t1 ++ t2, v :: vs, ?_, ?_, ?_⟩
        · rw [hch, ha1]
          simp only [List.append_assoc, List.cons_append, List.nil_append, addresses_succ]
          congr 1
          · congr 1
            congr 1
            · by_cases h : addr.toNat + 1 + n = 256
              · rw [if_pos h, if_pos (by omega)]
              · rw [if_neg h, if_neg (by omega)]
                apply BitVec.eq_of_toNat_eq
                rw [BitVec.toNat_add, ha1, BitVec.toNat_add]; simp; omega
            · congr 1
              · apply BitVec.eq_of_toNat_eq
                rw [BitVec.toNat_sub, hcm, BitVec.toNat_sub]; simp; omega
              · rw [decide_eq_decide]; omega
          · congr 1
            congr 1
            exact alarm_aux _ _ _ _
        · rw [frames_append, hf1, hf2]; rfl
        · rw [hch, appReads_append, hr1, ← hv]
          exact hval
      · rw [if_neg (fun h => hgo ⟨h.1, h.2.1⟩)]
        have hch : chunk (k + 1) addr count = 1 := by
          unfold chunk; rw [hcm] at hgo; omega
        rw [hch]
        refine ⟨t1, [v], ?_, hf1, ?_⟩
        · have h1 : ¬ addr.toNat + 1 = 256 := by omega
          have h2 : addresses addr 1 = [addr] := by simp [addresses]
          have h3 : (0x80 = addr) = (addr = 0x80) := propext eq_comm
          rw [if_neg h1, decide_eq_false h1, h2]
          simp only [List.mem_singleton, h3]
          rfl
        · have hval := Values.cons (a := addr) (w := w) (Values.nil c page
            { w with v := { w.v with alarm := if page = 0 ∧ addr = 0x80 then 0 else w.v.alarm }, out := w.out ++ t1 })
            ⟨rfl, rfl, rfl, rfl⟩ (by simp) rfl
          rw [hr1, ← hv]
          simpa [addresses] using hval
    · have hch : chunk (k + 1) addr count = 1 := by unfold chunk; omega
      have hd : decide (¬addr.toNat < 0xFF) = true := by simp [hff]
      rw [hd, if_neg (fun h => by simp at h), if_neg hff, hch]
      refine ⟨t1, [v], ?_, hf1, ?_⟩
      · have hae : addr = 0xFF := BitVec.eq_of_toNat_eq (by simp; omega)
        subst hae
        simp [addresses]
      · have hval := Values.cons (a := addr) (w := w) (Values.nil c page
            { w with v := { w.v with alarm := if page = 0 ∧ addr = 0x80 then 0 else w.v.alarm }, out := w.out ++ t1 })
            ⟨rfl, rfl, rfl, rfl⟩ (by simp) rfl
        rw [hr1, ← hv]
        simpa [addresses] using hval

/-- The request after a successful response. -/
def extNext (e : ExtPageRead) : ExtPageRead where
  page := if e.addr.toNat + chunk 4 e.addr e.count = 256 then e.page + 1 else e.page
  addr := if e.addr.toNat + chunk 4 e.addr e.count = 256 then 0 else e.addr + BitVec.ofNat 8 (chunk 4 e.addr e.count)
  count := e.count - BitVec.ofNat 16 (chunk 4 e.addr e.count)
  seq := e.seq + 1

/-- The registers which are still to be sent. -/
def pending (e : ExtPageRead) : List Nat := requested e.page e.addr e.count.toNat

/-- The response to be sent next. -/
def extFrame (c : Ctx) (nick : U8) (e : ExtPageRead) (vs : List U8) : Msg :=
  event c nick 7 39 ([e.seq, wordMsb e.page, wordLsb e.page, e.addr] ++ vs)

theorem wordMsb_toNat (x : U16) : (wordMsb x).toNat = x.toNat / 256 := by
  have := x.isLt
  simp only [wordMsb, BitVec.toNat_setWidth, BitVec.toNat_ushiftRight, Nat.shiftRight_eq_div_pow]
  omega
theorem wordLsb_toNat (x : U16) : (wordLsb x).toNat = x.toNat % 256 := by
  simp [wordLsb, BitVec.toNat_setWidth]

theorem chunk_pos {e : ExtPageRead} (h : 0 < e.count.toNat) : 1 ≤ chunk 4 e.addr e.count := by
  have := e.addr.isLt; unfold chunk; omega
theorem chunk_le (e : ExtPageRead) : chunk 4 e.addr e.count ≤ 4 := by unfold chunk; omega

theorem regsOf_extFrame (c : Ctx) (nick : U8) (e : ExtPageRead) (vs : List U8) (h : vs.length ≤ 4) :
    regsOf (extFrame c nick e vs) = (List.range vs.length).map fun i => regNo e.page e.addr + i := by
  have hsz : (extFrame c nick e vs).size.toNat = vs.length + 4 := by
    simp [extFrame, event]; omega
  have h1 : (extFrame c nick e vs).data[1] = wordMsb e.page := by simp [extFrame, event, bytes8]
  have h2 : (extFrame c nick e vs).data[2] = wordLsb e.page := by simp [extFrame, event, bytes8]
  have h3 : (extFrame c nick e vs).data[3] = e.addr := by simp [extFrame, event, bytes8]
  unfold regsOf
  rw [hsz, h1, h2, h3, wordMsb_toNat, wordLsb_toNat]
  simp only [Nat.add_sub_cancel, regNo]
  apply List.map_congr_left
  intro i _
  have := e.page.isLt
  omega

theorem pending_next {e : ExtPageRead} (h : 0 < e.count.toNat) :
    pending e = ((List.range (chunk 4 e.addr e.count)).map fun i => regNo e.page e.addr + i) ++ pending (extNext e) := by
  have ha := e.addr.isLt
  have hp := e.page.isLt
  have hc := e.count.isLt
  have hk1 := chunk_pos h
  have hk4 := chunk_le e
  have hkc : chunk 4 e.addr e.count ≤ e.count.toNat := by unfold chunk; omega
  have hka : e.addr.toNat + chunk 4 e.addr e.count ≤ 256 := by unfold chunk; omega
  have hcnt : (extNext e).count.toNat = e.count.toNat - chunk 4 e.addr e.count := by
    simp only [extNext, BitVec.toNat_sub, BitVec.toNat_ofNat]; omega
  have hno : (regNo (extNext e).page (extNext e).addr) % (65536 * 256) =
      (regNo e.page e.addr + chunk 4 e.addr e.count) % (65536 * 256) := by
    unfold extNext regNo
    generalize chunk 4 e.addr e.count = k at *
    by_cases h256 : e.addr.toNat + k = 256
    · simp only [h256, if_true, BitVec.toNat_add]
      simp
      omega
    · simp only [h256, if_false, BitVec.toNat_add, BitVec.toNat_ofNat]
      omega
  unfold pending requested
  rw [hcnt]
  obtain ⟨n, hn⟩ := Nat.exists_eq_add_of_le hkc
  rw [hn, Nat.add_sub_cancel_left, List.range_add, List.map_append, List.map_map]
  refine congr (congrArg _ ?_) ?_
  · apply List.map_congr_left
    intro i hi
    rw [List.mem_range] at hi
    unfold regNo
    omega
  · apply List.map_congr_left
    intro i _
    simp only [Function.comp]
    omega

/-- The next response. -/
theorem extRead_run (c : Ctx) (w : W) (h : 0 < w.v.ext.count.toNat) : ∃ t vs txErr,
    (Core.extendedPageReadRegister c w).2 = { w with
      v := { w.v with
        alarm := if w.v.ext.page = 0 ∧ 0x80 ∈ addresses w.v.ext.addr (chunk 4 w.v.ext.addr w.v.ext.count) then 0 else w.v.alarm
        ext := if c.txOk (w.out ++ t).length then extNext w.v.ext else w.v.ext }
      tp := { w.tp with txErr := txErr }
      out := w.out ++ t ++ [.tx (extFrame c w.v.nick w.v.ext vs) (c.txOk (w.out ++ t).length)] } ∧
    frames t = [] ∧ vs.length = chunk 4 w.v.ext.addr w.v.ext.count ∧
    Values c w.v.ext.page w (addresses w.v.ext.addr (chunk 4 w.v.ext.addr w.v.ext.count)) vs (appReads t) := by
  obtain ⟨t, vs, hr, hf, hv⟩ := extReadLoop_run c w.v.ext.page 4 w.v.ext.addr w.v.ext.count
    [w.v.ext.seq, wordMsb w.v.ext.page, wordLsb w.v.ext.page, w.v.ext.addr] (by omega) h w
  have hlen : vs.length = chunk 4 w.v.ext.addr w.v.ext.count := by rw [hv.length]; simp [addresses]
  have hk4 := chunk_le w.v.ext
  obtain ⟨w1, hw1⟩ : ∃ w1 : W, w1 = { w with
    v := { w.v with alarm := if w.v.ext.page = 0 ∧ 0x80 ∈ addresses w.v.ext.addr (chunk 4 w.v.ext.addr w.v.ext.count) then 0
      else w.v.alarm }, out := w.out ++ t } := ⟨_, rfl⟩
  rw [← hw1] at hr
  have hWo : w1.out = w.out ++ t := by rw [hw1]
  have hWe : w1.v.ext = w.v.ext := by rw [hw1]
  have hWn : w1.v.nick = w.v.nick := by rw [hw1]
  unfold Core.extendedPageReadRegister
  rw [bind_run, get_run]
  simp only [whenM_run]
  rw [if_pos h, bind_run, hr]
  simp only
  rw [bind_run, tx_run _ _ _ _ (by simp; omega)]
  simp only [whenM_run, hWo]
  have hfr : frame c w1 7 39 ([w.v.ext.seq, wordMsb w.v.ext.page, wordLsb w.v.ext.page, w.v.ext.addr] ++ vs) =
      extFrame c w.v.nick w.v.ext vs := by rw [frame, hWn]; rfl
  rw [hfr]
  cases hok : c.txOk (w.out ++ t).length with
  | true =>
    refine ⟨t, vs, (sent c (extFrame c w.v.nick w.v.ext vs) w1).tp.txErr, ?_, hf, hlen, hv⟩
    rw [if_pos rfl, setV_run, hok, sent, Transport.countErr_eq, hWo, hok]
    simp only [if_true, extNext, decide_eq_true_eq, hWe]
    rw [hw1]
    simp only
    congr 1
    congr 1
    congr 1
    split <;> rfl
  | false =>
    refine ⟨t, vs, (sent c (extFrame c w.v.nick w.v.ext vs) w1).tp.txErr, ?_, hf, hlen, hv⟩
    rw [if_neg (by simp), hok, sent, Transport.countErr_eq, hWo, hok]
    simp only [Bool.false_eq_true, if_false]
    rw [hw1]

end Vscp
