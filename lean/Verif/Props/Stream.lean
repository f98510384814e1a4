/-
Property theorems: extended page reads (C24).
-/
import Verif.Lemmas.StreamOps
import Verif.Props.Pages
import Verif.Example.Ctx

namespace Vscp.Stream
open M Spec Transport

/-- Number of registers an extended page read event asks for: the fifth data byte (0: 256), one register without it. -/
def wanted (l : List U8) : Nat :=
  match l with
  | [n] => if n = 0 then 256 else n.toNat
  | _ => 1

/-- The request of an event. -/
theorem extRequest_eq {m : Msg} {nick hi lo addr : U8} {l : List U8} (hm : Request m 37 ([nick, hi, lo, addr] ++ l))
    (hl : l.length ≤ 1) : 4 ≤ m.size.toNat ∧ m.data[0] = nick ∧ (extRequest m).page = mkWord hi lo ∧ (extRequest m).addr = addr ∧
      (extRequest m).count.toNat = wanted l ∧ (extRequest m).seq = 0 := by
  have h8 : ([nick, hi, lo, addr] ++ l).length ≤ 8 := by simp; omega
  have h0 : m.data[0] = nick := hm.at 0 (by simp) h8
  have h1 : m.data[1] = hi := hm.at 1 (by simp) h8
  have h2 : m.data[2] = lo := hm.at 2 (by simp) h8
  have h3 : m.data[3] = addr := hm.at 3 (by simp) h8
  have hs := hm.size
  rcases l with _ | ⟨n, _ | ⟨b, l⟩⟩
  case nil =>
    have hs4 : m.size = 4 := hs
    refine ⟨by rw [hs4]; decide, h0, by rw [← h1, ← h2]; rfl, h3, ?_, rfl⟩
    simp [extRequest, hs4, wanted]
  case cons.nil =>
    have hs5 : m.size = 5 := hs
    have h4 : m.data[4] = n := hm.at 4 (by simp) h8
    refine ⟨by rw [hs5]; decide, h0, by rw [← h1, ← h2]; rfl, h3, ?_, rfl⟩
    simp only [extRequest, hs5, h4, if_true, wanted]
    split
    · rfl
    · rw [BitVec.toNat_setWidth, Nat.mod_eq_of_lt (by have := n.isLt; omega)]
  case cons.cons => simp at hl

/-- Invariant part of the properties below: the request, and any history without further protocol events. -/
theorem stream {c : Ctx} {w : W} {m : Msg} {hi lo addr : U8} {l : List U8} (ha : w.v.st = .active)
    (hq : c.loopback = true → LbHolds c w []) (hn : c.protoNotify = true → c.protoHandled w.out.length = false)
    (hm : Request m 37 ([w.v.nick, hi, lo, addr] ++ l)) (hl : l.length ≤ 1) (ops : List Op) (ho : ∀ op ∈ ops, op.keepsStream) :
    ∃ t w1, (runOps c (.process (some m) :: ops) w).out = w.out ++ t ∧ runOps c (.process (some m) :: ops) w = runOps c ops w1 ∧
      w1.v.st = .active ∧ LbAll c (fun m => m.cls ≠ 0) w1 ∧ w.out.length < w1.out.length ∧ w1.v.ext.count.toNat ≤ wanted l ∧
      (delivered t).flatMap regsOf ++ pending (runOps c (.process (some m) :: ops) w).v.ext =
        requested (mkWord hi lo) addr (wanted l) ∧
      (∀ f ∈ delivered t, regsOf f ≠ [] ∧ (regsOf f).length ≤ 4 ∧ ∀ r ∈ regsOf f, ∀ r' ∈ regsOf f, r / 256 = r' / 256) ∧
      numberedFrom 0 (delivered t) := by
  obtain ⟨h4, h0, e1, e2, e3, e4⟩ := extRequest_eq hm hl
  have hr : (preProcess c (some m) w).1 = some m := by
    rw [preProcess_rx]
    by_cases hlb : c.loopback = true
    · obtain ⟨cb, hr, -⟩ := readMessage_spec hlb (hq hlb) (some m)
      rw [hr]; rfl
    · rw [readMessage, if_neg hlb]; rfl
  have hlb : LbAll c (fun m => m.cls ≠ 0) (readMessage c (some m) w).2 := by
    intro hlb
    obtain ⟨cb, hr, hh⟩ := readMessage_spec hlb (hq hlb) (some m)
    rw [hr]
    exact ⟨_, hh, by simp⟩
  obtain ⟨rxv, ep, lg, x, hp⟩ := preProcess_frame c (some m) w
  obtain ⟨tp, ub, hrf⟩ := readMessage_frame' c (some m) w
  have h1o : (preProcess c (some m) w).2.out = w.out := by rw [hp, hrf]
  have h1n : (preProcess c (some m) w).2.v.nick = w.v.nick := by rw [hp]
  have h1s : (preProcess c (some m) w).2.v.st = .active := by rw [hp]; exact ha
  have h1l : LbAll c (fun m => m.cls ≠ 0) (preProcess c (some m) w).2 := hlb.congr (by rw [hp])
  have hproc := process_protocol ha hr hm.cls (by rw [h1o]; exact hn)
  generalize (preProcess c (some m) w).2 = w1 at *
  -- notification of the application
  have h2 : ∃ t, (notified c m w1).out = w.out ++ t ∧ delivered t = [] ∧ (notified c m w1).v = w1.v ∧
      (notified c m w1).tp.lb = w1.tp.lb := by
    unfold notified
    split
    · exact ⟨[.protoEvent m (c.protoHandled w1.out.length)], by rw [← h1o]; rfl, rfl, rfl, rfl⟩
    · exact ⟨[], by simpa using h1o, rfl, rfl, rfl⟩
  obtain ⟨t2, h2o, h2d, h2v, h2l⟩ := h2
  have h2l' : LbAll c (fun m => m.cls ≠ 0) (notified c m w1) := h1l.congr h2l
  generalize notified c m w1 = w2 at *
  obtain ⟨t3, h3, h3s, h3l⟩ := request_streams (c := c) (w := w2) hm.typ h4 (by rw [h2v, h1n, h0])
  have h3l' : LbAll c (fun m => m.cls ≠ 0) (Core.handleProtocolClassType c m w2).2 := h2l'.congr h3l
  have h3p : w2.out.length < (Core.handleProtocolClassType c m w2).2.out.length := by
    have := extRead_progress c { w2 with v := { w2.v with ext := extRequest m } } (extRequest_pos m)
    have e : (Core.handleProtocolClassType c m w2).2 =
        (Core.extendedPageReadRegister c { w2 with v := { w2.v with ext := extRequest m } }).2 := by
      unfold Core.handleProtocolClassType
      rw [hm.typ]
      simp only [show BitVec.toNat (37 : U8) = 37 from rfl]
      unfold Core.handleExtendedPageReadRegister
      rw [bind_run, get_run]
      simp only [whenM_run]
      rw [if_pos ⟨h4, by rw [h2v, h1n, h0]⟩, bind_run, setV_run]
      rfl
    rw [e]; exact this.1
  generalize (Core.handleProtocolClassType c m w2).2 = w3 at *
  obtain ⟨t4, h4', h4s, h4l⟩ := afterEvent_streams (m := m) h3l'
  rw [← hproc] at h4' h4s h4l
  have hact : (Core.process c (some m) w).2.v.st = .active := by rw [h4s, h3s, h2v, h1s]
  obtain ⟨t5, h5, -, -⟩ := runOps_streams ops ho (Core.process c (some m) w).2 hact h4l
  have hall := (h3.trans h4').trans h5
  have hrun : runOps c (.process (some m) :: ops) w = runOps c ops (Core.process c (some m) w).2 := rfl
  refine ⟨t2 ++ (t3 ++ t4 ++ t5), (Core.process c (some m) w).2, ?_, hrun, hact, h4l, ?_, ?_, ?_, ?_, ?_⟩
  · rw [hrun, hall.out]; simp only [h2o, List.append_assoc]
  · have : w.out.length ≤ w2.out.length := by rw [h2o]; simp
    have : w3.out.length ≤ (Core.process c (some m) w).2.out.length := by rw [h4'.out]; simp
    omega
  · have := (h3.trans h4').count_le
    simp only [e3] at this
    exact this
  · rw [delivered_append, h2d, List.nil_append, hrun, hall.regs]
    simp only [pending, e1, e2, e3]
  · rw [delivered_append, h2d, List.nil_append]
    exact hall.small
  · rw [delivered_append, h2d, List.nil_append]
    have := hall.numbered
    simp only [e4] at this
    exact this

/-- C24: an extended page read event for an active node asks for `wanted l` registers from (page, addr) on.  Whatever the
node does then without a further protocol event, and whatever transmissions fail: the responses which were transmitted
carry the requested registers one after the other from the first one on, none twice and none left out.  No response carries
more than four registers or registers of two pages, and the responses are numbered. -/
theorem C24_stream {c : Ctx} {w : W} {m : Msg} {hi lo addr : U8} {l : List U8} (ha : w.v.st = .active)
    (hq : c.loopback = true → LbHolds c w []) (hn : c.protoNotify = true → c.protoHandled w.out.length = false)
    (hm : Request m 37 ([w.v.nick, hi, lo, addr] ++ l)) (hl : l.length ≤ 1) (ops : List Op) (ho : ∀ op ∈ ops, op.keepsStream) :
    ∃ t, (runOps c (.process (some m) :: ops) w).out = w.out ++ t ∧
      (delivered t).flatMap regsOf <+: requested (mkWord hi lo) addr (wanted l) ∧
      (∀ f ∈ delivered t, regsOf f ≠ [] ∧ (regsOf f).length ≤ 4 ∧ ∀ r ∈ regsOf f, ∀ r' ∈ regsOf f, r / 256 = r' / 256) ∧
      numberedFrom 0 (delivered t) := by
  obtain ⟨t, w1, h1, -, -, -, -, -, h2, h3, h4⟩ := stream ha hq hn hm hl ops ho
  exact ⟨t, h1, ⟨_, h2⟩, h3, h4⟩

/-- C24: if transmissions do not fail for ever (here: none from trace position `N` on), every requested register is
delivered exactly once, in order. -/
theorem C24_complete {c : Ctx} {w : W} {m : Msg} {hi lo addr : U8} {l : List U8} (ha : w.v.st = .active)
    (hq : c.loopback = true → LbHolds c w []) (hn : c.protoNotify = true → c.protoHandled w.out.length = false)
    (hm : Request m 37 ([w.v.nick, hi, lo, addr] ++ l)) (hl : l.length ≤ 1) (ops : List Op) (ho : ∀ op ∈ ops, op.keepsStream)
    (N : Nat) (hN : ∀ i, N ≤ i → c.txOk i = true) (hc : (N - w.out.length) + wanted l ≤ cycles ops) :
    ∃ t, (runOps c (.process (some m) :: ops) w).out = w.out ++ t ∧
      (delivered t).flatMap regsOf = requested (mkWord hi lo) addr (wanted l) := by
  obtain ⟨t, w1, h1, hrun, hact, hlb, hout, hcnt, h2, -, -⟩ := stream ha hq hn hm hl ops ho
  refine ⟨t, h1, ?_⟩
  have h0 := runOps_complete N hN ops ho w1 hact hlb (by omega)
  rw [← hrun] at h0
  rw [← h2]
  simp [pending, requested, h0]

theorem wordMsb_mkWord (hi lo : U8) : wordMsb (mkWord hi lo) = hi := by
  apply BitVec.eq_of_toNat_eq
  rw [wordMsb_toNat, Pages.mkWord_eq, BitVec.toNat_ofNat]
  have := hi.isLt; have := lo.isLt
  omega
theorem wordLsb_mkWord (hi lo : U8) : wordLsb (mkWord hi lo) = lo := by
  apply BitVec.eq_of_toNat_eq
  rw [wordLsb_toNat, Pages.mkWord_eq, BitVec.toNat_ofNat]
  have := hi.isLt; have := lo.isLt
  omega

/-- C24: a response reports the contents of the registers it names; the application is asked once for each of its
registers. -/
theorem C24_values {c : Ctx} {w : W} {m : Msg} {hi lo addr : U8} {l : List U8}
    (hm : Request m 37 ([w.v.nick, hi, lo, addr] ++ l)) (hl : l.length ≤ 1) :
    ∃ t vs ok, (Core.handleProtocolClassType c m w).2.out =
        w.out ++ t ++ [.tx (event c w.v.nick 7 39 ([0, hi, lo, addr] ++ vs)) ok] ∧
      frames t = [] ∧ vs.length = min 4 (min (wanted l) (256 - addr.toNat)) ∧
      Values c (mkWord hi lo) w (addresses addr vs.length) vs (appReads t) := by
  obtain ⟨h4, h0, e1, e2, e3, e4⟩ := extRequest_eq hm hl
  have e : (Core.handleProtocolClassType c m w).2 =
      (Core.extendedPageReadRegister c { w with v := { w.v with ext := extRequest m } }).2 := by
    unfold Core.handleProtocolClassType
    rw [hm.typ]
    simp only [show BitVec.toNat (37 : U8) = 37 from rfl]
    unfold Core.handleExtendedPageReadRegister
    rw [bind_run, get_run]
    simp only [whenM_run]
    rw [if_pos ⟨h4, h0.symm⟩, bind_run, setV_run]
    rfl
  obtain ⟨t, vs, txe, hr, hf, hlen, hv⟩ := extRead_run c { w with v := { w.v with ext := extRequest m } } (extRequest_pos m)
  rw [e, hr]
  refine ⟨t, vs, c.txOk (w.out ++ t).length, ?_, hf, ?_, ?_⟩
  · rw [extFrame]
    simp only [e1, e2, e4, wordMsb_mkWord, wordLsb_mkWord]
  · rw [hlen]
    simp only [chunk, e2, e3]
  · rw [hlen]
    have hs : Same w { w with v := { w.v with ext := extRequest m } } := ⟨rfl, rfl, rfl, rfl⟩
    simp only [e1, e2] at hv ⊢
    refine ⟨hv.length, fun x hx hn => ?_, hv.app⟩
    rw [hv.kept x hx hn]
    exact readRegister_same hn hs (fun _ _ => rfl)

-- An active node with nickname 5: ten registers from register 0xFC of page 0 on.  The second transmission of a response
-- fails and is repeated.
def exCtx : Ctx := { Ex.ctx with txOk := fun i => i != 4 }
deriving instance DecidableEq for Util.CyclicBuffer
def exNode : W := runOps exCtx [.init fun _ => true, .process none] (powerUp fun a => if a = 1 then 0x05 else 0x40)
def exReq : Msg := Ex.msg 0 37 9 [5, 0, 0, 0xFC, 10]

example : exNode.v.st = .active ∧ LbHolds exCtx exNode [] ∧ Request exReq 37 ([exNode.v.nick, 0, 0, 0xFC] ++ [10]) ∧
    exCtx.protoNotify = false ∧ (∀ i, 5 ≤ i → exCtx.txOk i = true) := by
  refine ⟨by decide +kernel, ?_, ⟨rfl, rfl, rfl, by decide +kernel⟩, rfl, ?_⟩
  · obtain ⟨cb, h1, h2⟩ := init_spec (c := exCtx) ⟨by decide, by decide, by decide⟩ rfl (powerUp fun _ => 0)
    have e : exNode.tp.lb = (init exCtx (powerUp fun _ => 0)).2.tp.lb := by decide +kernel
    rw [h1] at e
    exact LbHolds_congr h2 e
  · intro i hi
    simp only [exCtx, bne_iff_ne]
    omega

example : ((runOps exCtx (.process (some exReq) :: [.process none, .process none, .process none]) exNode).out.drop
    exNode.out.length).filterMap (fun o => match o with | .tx m ok => some (payload m, ok) | _ => none) =
    [([0, 0, 0, 0xFC, 0x40, 0x40, 0x40, 0x40], true), ([1, 0, 1, 0, 0x40, 0x40, 0x40, 0x40], false),
     ([1, 0, 1, 0, 0x40, 0x40, 0x40, 0x40], true), ([2, 0, 1, 4, 0x40, 0x40], true)] := by
  decide +kernel

end Vscp.Stream
