/-
Property theorems: what is written over the CAN bus is read over the CAN bus (C121).
-/
import Verif.Props.CanAsk
import Verif.Lemmas.StreamOps
import Verif.Props.Stream

namespace Vscp.ReadBack
open M Vscp.Spec Vscp.Registers

/-! ### The request -/

/-- The registers which hold settings are kept by the framework. -/
theorem kept {c : Ctx} (hc : Sett.Plain c.toCfg) {s : Settings} {page : U16} {addr v : U8} (h : s.read c.toCfg page.toNat addr.toNat = some v) : appServed c page addr = false := by
  unfold Settings.read at h
  unfold appServed
  by_cases h0 : page.toNat = 0 ∧ 0x80 ≤ addr.toNat
  · have e0 : page = 0 := BitVec.eq_of_toNat_eq h0.1
    simp [e0, h0.2]
  · rw [if_neg h0] at h
    by_cases hd : c.dm = true ∧ page.toNat = c.dmPage ∧ c.dmOffset.toNat ≤ addr.toNat ∧ addr.toNat < 8 * c.dmRows
    · have := (DmRegs.single_claimed (hc.dm hd.1) page addr).mpr hd.2
      simp [hd.1, this]
    · have hb : dmByte c.toCfg page.toNat addr.toNat = none := by
        unfold dmByte
        rw [if_neg hd]
      rw [hb] at h
      simp only at h
      by_cases hg : c.dmNg = true ∧ page.toNat = c.ngPage ∧ addr.toNat < c.ngSize
      · have := (NgRegs.claimed_iff (hc.ng hg.1) page addr).mpr hg.2
        simp [hg.1, this]
      · have hb' : ngByte c.toCfg page.toNat addr.toNat = none := by
          unfold ngByte
          rw [if_neg hg]
        rw [hb'] at h
        cases h

theorem word (pm pl : U8) : (mkWord pm pl).toNat = pm.toNat * 256 + pl.toNat := by
  have h1 := pm.isLt
  have h2 := pl.isLt
  rw [Pages.mkWord_eq, BitVec.toNat_ofNat]
  omega

/-- C121: the node answers a request for up to four registers of a page (extended page read) with the values of the settings. -/
theorem C121_sends {c : Ctx} (hc : Sett.Plain c.toCfg) {w : W} {pm pl addr : U8} {vs : List U8} (h0 : vs ≠ []) (h4 : vs.length ≤ 4) (hend : addr.toNat + vs.length ≤ 256)
    (hv : ∀ i (h : i < vs.length), (settings c.toCfg w).read c.toCfg (pm.toNat * 256 + pl.toNat) (addr.toNat + i) = some vs[i]) {m : Msg}
    (hm : Request m 37 [w.v.nick, pm, pl, addr, BitVec.ofNat 8 vs.length]) :
    ∃ t, (handle c m w).out = w.out ++ t ∧ frames t = [event c w.v.nick 7 39 ([0, pm, pl, addr] ++ vs)] := by
  have hpos : 0 < vs.length := List.length_pos_iff.2 h0
  have d0 : m.data[0] = w.v.nick := hm.at 0 (by simp) (by simp)
  have d1 : m.data[1] = pm := hm.at 1 (by simp) (by simp)
  have d2 : m.data[2] = pl := hm.at 2 (by simp) (by simp)
  have d3 : m.data[3] = addr := hm.at 3 (by simp) (by simp)
  have d4 : m.data[4] = BitVec.ofNat 8 vs.length := hm.at 4 (by simp) (by simp)
  have hs : m.size = 5 := hm.size
  have hcnt : (BitVec.ofNat 8 vs.length : U8).toNat = vs.length := by rw [BitVec.toNat_ofNat]; omega
  obtain ⟨e, he⟩ : ∃ e : ExtPageRead, e = ⟨mkWord pm pl, addr, (BitVec.ofNat 8 vs.length : U8).setWidth 16, 0⟩ := ⟨_, rfl⟩
  have hx : extRequest m = e := by
    unfold extRequest
    rw [d1, d2, d3, d4, if_pos hs, if_neg (fun h => by have := congrArg BitVec.toNat h; rw [hcnt] at this; change vs.length = 0 at this; omega), he]
  have hn : e.count.toNat = vs.length := by rw [he]; show (BitVec.setWidth 16 _).toNat = _; rw [BitVec.toNat_setWidth, hcnt]; omega
  have hh : handle c m w = (Core.extendedPageReadRegister c { w with v := { w.v with ext := e } }).2 := by
    rw [← hx]
    unfold handle Core.handleProtocolClassType
    rw [hm.typ]
    simp only [show BitVec.toNat (37 : U8) = 37 from rfl]
    unfold Core.handleExtendedPageReadRegister
    rw [bind_run, get_run]
    simp only [whenM_run]
    rw [if_pos ⟨by rw [hs]; decide, d0.symm⟩, bind_run, setV_run]
    rfl
  have hch : chunk 4 e.addr e.count = vs.length := by
    unfold chunk
    rw [hn, he]
    show min 4 (min vs.length (256 - addr.toNat)) = vs.length
    omega
  obtain ⟨t, ws, txErr, hr, hf, hl, hw⟩ := extRead_run c { w with v := { w.v with ext := e } } (by rw [show ({ w with v := { w.v with ext := e } } : W).v.ext = e from rfl, hn]; exact hpos)
  simp only [hch] at hl hw
  have hws : ws = vs := by
    apply List.ext_getElem hl
    intro i hi hi'
    have hadr : (addr + BitVec.ofNat 8 i).toNat = addr.toNat + i := by
      rw [BitVec.toNat_add, BitVec.toNat_ofNat]
      omega
    have hread : (settings c.toCfg w).read c.toCfg (mkWord pm pl).toNat (addr + BitVec.ofNat 8 i).toNat = some vs[i] := by
      rw [word, hadr]
      exact hv i hi'
    have hz : (addr + BitVec.ofNat 8 i, ws[i]) ∈ (addresses e.addr vs.length).zip ws := by
      rw [List.mem_iff_getElem]
      refine ⟨i, by simp [addresses]; omega, ?_⟩
      simp [addresses, he]
    have : ws[i] = _ := hw.kept _ hz (by rw [he]; exact kept hc hread)
    rw [this, he]
    exact Sett.read_val (c := c) hc (w := { w with v := { w.v with ext := ⟨mkWord pm pl, addr, (BitVec.ofNat 8 vs.length : U8).setWidth 16, 0⟩ } }) hread
  refine ⟨t ++ [.tx (extFrame c w.v.nick e ws) (c.txOk (w.out ++ t).length)], ?_, ?_⟩
  · rw [hh, hr]
    simp
  · rw [frames_append, hf, hws]
    show [extFrame c w.v.nick e vs] = _
    unfold extFrame
    rw [he]
    simp only [Stream.wordMsb_mkWord, Stream.wordLsb_mkWord]

end Vscp.ReadBack

namespace Vscp.CanConfig
open Vscp.Safety Vscp.Spec Vscp.Driver Vscp.Driver.CanNode Vscp.Spec.CanNode

/-- C121: at any point of any history of a node on the bus: if the framework runs at least once between two frames of a further piece of history, the node stays active, keeps its nickname, and has delivered all frames
at its end, then up to four registers another node asks for are answered with the values which the frames of this piece of history have made of the settings. -/
theorem C121_bus {c : Ctx} (hc : GoodCfg c) (hpl : Sett.Plain c.toCfg) {cb : Callbacks} (hcb : CbOk cb) (hlb : c.loopback = false) (hpn : c.protoNotify = false) (a : Around) (ok : Tmr → Bool)
    (ps : Nat → U8) (s : CanDrv.State) (l : List Move) (hl : ∀ mv ∈ l, Spec.CanNode.Ok mv) {n : Node} (hn : run c cb a l (boot c cb ok ps s) = .ok n)
    (nick : U8) (l' : List Move) (hl' : ∀ mv ∈ l', Spec.CanNode.Ok mv) {n' : Node} (hn' : run c cb a l' n = .ok n') (hstay : Stays c cb a nick l' n)
    (hr : ¬ factoryReset n.w n'.w) (hpaced : Paced false l') (hu : n.x.2.stored.length = n.heard.length) (hu' : n'.x.2.stored.length = n'.heard.length)
    (hdata : ∀ b ∈ offered l', b.rtr = false) (prio origin : U8) (hard : Bool) (hp : prio.toNat < 8) (pm pl addr : U8) (vs : List U8) (h0 : vs ≠ []) (h4 : vs.length ≤ 4)
    (hend : addr.toNat + vs.length ≤ 256)
    (hv : ∀ i (h : i < vs.length), ((offered l').foldl (Settings.frame c.toCfg nick) (settings c.toCfg n.w)).read c.toCfg (pm.toNat * 256 + pl.toNat) (addr.toNat + i) = some vs[i])
    (hf : (taken n'.w.out).length < n'.x.2.wire.length + 14) {n'' : Node}
    (hn'' : run c cb a ([.rx (protocol prio hard 37 origin [nick, pm, pl, addr, BitVec.ofNat 8 vs.length]), .cycle] ++ List.replicate 14 .tx) n' = .ok n'') :
    ∃ old new, old.length + n'.x.2.wire.length = (taken n'.w.out).length ∧
      n''.x.2.wire.Perm (n'.x.2.wire ++ old ++ [protocol 7 c.hardCoded 39 nick ([0, pm, pl, addr] ++ vs)] ++ new) := by
  have hset := C110_frames hc hpl hcb hlb hpn a ok ps s l hl hn nick l' hl' hn' hstay hr hpaced hu hu' hdata
  obtain ⟨ha, hni⟩ := hstay l' [] n' (by simp) hn'
  rw [← hset] at hv
  subst hni
  refine (exchange hc hcb hlb hpn a ok ps s (l ++ l') (fun mv h => ?_) (n := n') (by rw [run_append, hn]; exact hn') ha hu' prio origin hard hp 7 (by decide) 37 _ (by simp)
    [(39, [0, pm, pl, addr] ++ vs)] (fun f h => ?_) hf (fun m hm => ?_) hn'').1
  · rcases List.mem_append.1 h with h | h
    · exact hl mv h
    · exact hl' mv h
  · cases List.mem_singleton.1 h
    simp
    omega
  · have h1 : (preProcess c (some m) n'.w).2.v.nick = n'.w.v.nick := pre_same c (some m) n'.w .nick (by decide)
    have h2 : (preProcess c (some m) n'.w).2.v.page = n'.w.v.page := pre_same c (some m) n'.w .page (by decide)
    have h3 : (preProcess c (some m) n'.w).2.ps = n'.w.ps := pre_same c (some m) n'.w .ps (by decide)
    have h5 : settings c.toCfg (preProcess c (some m) n'.w).2 = settings c.toCfg n'.w := by
      unfold settings
      rw [h2, h3]
    rw [← h5] at hv
    rw [← h1] at hm
    obtain ⟨t, e1, e2⟩ := ReadBack.C121_sends hpl h0 h4 hend hv hm
    exact ⟨t, e1, by rw [e2, h1]; rfl⟩

end Vscp.CanConfig

namespace Vscp.Avr.Sys
open M Vscp.Driver Vscp.Spec Vscp.Spec.AvrSys Vscp.Safety
open Vscp.Driver.CanNode (Around Res)

variable {s : Surr} {a : Nat → Around}

/-- C121: the whole example: up to four registers which another node asks for are answered with the values which the frames of a piece of history, in which the button is not held, have made of the settings, whatever
the main loop, its timers and the decision matrix do in between. -/
theorem C121_example {past : List Out} {n : Nat} {ps : Nat → U8} {ctl : CanDrv.State} {l l' : List Move} (hl : ∀ mv ∈ l ++ l', AvrSys.Ok mv) {y y' : State}
    (hr : run s a l (boot s past n ps ctl) = .ok y) (hr' : run s a l' y = .ok y') (hn : y'.fw.life = n) (hh : ¬ Held (l ++ l')) (ha : y.fw.w.v.st = .active)
    (hu : y.x.2.stored.length = y.heard.length) (hpaced : Paced 0 l')
    (hdata : ∀ b ∈ AvrSys.offered l', b.rtr = false ∧ (b.id / 2 ^ 16 % 512 = 0 → b.id / 2 ^ 8 % 256 ∉ [1, 3, 6, 8, 12, 23]))
    (hre : ¬ factoryReset y.fw.w y'.fw.w) (hpc' : y'.pc = .process) (hu' : y'.x.2.stored.length = y'.heard.length)
    (prio origin : U8) (hard : Bool) (hp : prio.toNat < 8) (pm pl addr : U8) (vs : List U8) (h0 : vs ≠ []) (h4 : vs.length ≤ 4) (hend : addr.toNat + vs.length ≤ 256)
    (hv : ∀ i (h : i < vs.length), ((AvrSys.offered l').foldl (Spec.Settings.frame (Avr.cfg s.sz) y.fw.w.v.nick) (Spec.settings (Avr.cfg s.sz) y.fw.w)).read (Avr.cfg s.sz)
      (pm.toNat * 256 + pl.toNat) (addr.toNat + i) = some vs[i])
    (hf : (CanNode.taken y'.fw.w.out).length < y'.x.2.wire.length + 14) {y'' : State}
    (hr'' : run s a ([.rx (Spec.CanNode.protocol prio hard 37 origin [y.fw.w.v.nick, pm, pl, addr, BitVec.ofNat 8 vs.length]), .step] ++ List.replicate 14 .tx) y' = .ok y'') :
    ∃ old new, old.length + y'.x.2.wire.length = (CanNode.taken y'.fw.w.out).length ∧
      y''.x.2.wire.Perm (y'.x.2.wire ++ old ++ [Spec.CanNode.protocol 7 false 39 y.fw.w.v.nick ([0, pm, pl, addr] ++ vs)] ++ new) := by
  have hl1 : ∀ mv ∈ l, AvrSys.Ok mv := fun mv h => hl mv (List.mem_append_left _ h)
  have hl2 : ∀ mv ∈ l', AvrSys.Ok mv := fun mv h => hl mv (List.mem_append_right _ h)
  have h1 := lives_eq hl hr hr' hn
  have hi := inv_of (boot_inv past n ps ctl) hl1 hr
  obtain ⟨lc, lb, evs, k, p, -, -⟩ := run_parts l (boot_inv past n ps ctl) hl1 hr h1
  obtain ⟨lc', lb', evs', k', p', hp', -⟩ := run_parts l' hi hl2 hr' (hn.trans h1.symm)
  have q := p.append h1 p'
  have hticks : ∀ op, .call op ∈ lc' → ∃ ms, op = .tick ms := by
    intro op hop
    rcases p'.calls op hop with rfl | rfl
    · exfalso
      have hb : (Button.run Button.isrAvr (lb ++ lb') Button.init).2 = evs ++ evs' := by rw [← btn_boot (s := s) past n ps ctl, q.button]
      have h0 : 0 < starts (lc ++ lc') := by
        obtain ⟨l1, l2, e⟩ := List.append_of_mem hop
        rw [e, starts_append, starts_append]
        simp only [starts]
        omega
      have hm : .segInit ∈ (Button.run Button.isrAvr (lb ++ lb') Button.init).2 := by
        rw [hb]
        rw [q.starts] at h0
        exact List.count_pos_iff.1 h0
      obtain ⟨q1, q2, e⟩ := seg_held hm
      rw [hb, q.seen] at e
      exact hh ⟨q1, q2, e⟩
    · exact ⟨250, rfl⟩
  obtain ⟨ps0, ctl0, lc0, o1, -, o3⟩ := reach hl1 hr h1
  have hbus := p'.bus
  have hoff := p'.offered
  have hpa := hp' 0 false (fun h => (by cases h)) hpaced
  have hstay := CanConfig.avr_stays s y.fw.life (a y.fw.life) hi.good ha hu lc' p'.ok hticks hpa (by rw [hoff]; exact hdata) hbus hre hu'
  have hst := hstay lc' [] (node y') (by simp) hbus
  have hr2 : run s a (l ++ l') (boot s past n ps ctl) = .ok y' := by rw [run_append, hr]; exact hr'
  have hrun := asked hl hr2 hn hst.1 hpc' hu' (CanNode.protocol_valid hp (by simp)) hr''
  rw [← h1] at hrun
  exact CanConfig.C121_bus (AvrProps.good s.sz (s.env y.fw.life)) (CanConfig.avrPlain s y.fw.life) (AvrProps.cb_ok _) rfl rfl (a y.fw.life) allOk ps0 ctl0 lc0 o1 o3 y.fw.w.v.nick lc' p'.ok hbus hstay
    hre hpa hu hu' (fun b hb => (hdata b (by rw [← hoff]; exact hb)).1) prio origin hard hp pm pl addr vs h0 h4 hend (by rw [hoff]; exact hv) hf hrun

/-- The hypotheses of `C121_example` are met (see the example of `C111_configured`, too): the example is configured, ... -/
example : (match exHist (exMs false), exHist (exMs false ++ exSet) with
    | .ok y, .ok y' => decide (y.fw.life = 0 ∧ y.fw.w.v.st = .active ∧ y.fw.w.v.nick = 5 ∧ y.x.2.stored.length = y.heard.length ∧ y'.fw.life = 0 ∧ y'.pc = .process ∧ y'.x.2.stored.length = y'.heard.length ∧
        .portRestore ∉ y'.fw.w.out ∧ (CanNode.taken y'.fw.w.out).length < y'.x.2.wire.length + 14 ∧
        [0, 1, 2, 3].map (fun i => ((AvrSys.offered exSet).foldl (Spec.Settings.frame (Avr.cfg AvrProps.exSurr.sz) 5) (Spec.settings (Avr.cfg AvrProps.exSurr.sz) y.fw.w)).read (Avr.cfg AvrProps.exSurr.sz) 1 (3 + i)) =
          [some 40, some 0xFF, some 7, some 1])
    | _, _ => false) = true := by decide +kernel

/-- ... and asked for four bytes of the first row of its decision matrix, which have been written by two frames. -/
example : (match exHist (exMs false ++ exSet ++ [.rx (Spec.CanNode.protocol 3 false 37 1 [5, 0, 1, 3, 4]), .step] ++ List.replicate 14 .tx) with
    | .ok y => decide ((y.x.2.wire.getLast?.map fun f => (f.id, f.data)) = some (7 * 2 ^ 26 + 39 * 2 ^ 8 + 5, [0, 0, 1, 3, 40, 0xFF, 7, 1]))
    | _ => false) = true := by decide +kernel

end Vscp.Avr.Sys
