/-
Property theorems: requests on the CAN bus and their answers (C120).
-/
import Verif.Spec.Ask
import Verif.Props.CanNode
import Verif.Props.PagesExact
import Verif.Props.AvrSys

namespace Vscp.Ask
open M Vscp.Spec Vscp.Registers

/-! ### The requests -/

/-- What a handler sends. -/
def Sends (c : Ctx) (m : Msg) (w : W) (F : List (U8 × List U8)) : Prop :=
  ∃ t, (handle c m w).out = w.out ++ t ∧ frames t = F.map fun f => event c w.v.nick 3 f.1 f.2

theorem sends_of_drop {c : Ctx} {m : Msg} {w : W} {F : List (U8 × List U8)} (ho : ∃ t, (handle c m w).out = w.out ++ t)
    (hf : frames ((handle c m w).out.drop w.out.length) = F.map fun f => event c w.v.nick 3 f.1 f.2) : Sends c m w F := by
  obtain ⟨t, ht⟩ := ho
  rw [ht, List.drop_left] at hf
  exact ⟨t, ht, hf⟩

theorem ofNat_inj {k : Nat} (hk : k < 128) : (BitVec.ofNat 8 (0x80 + k)).toNat = 0x80 + k := by
  rw [BitVec.toNat_ofNat, Nat.mod_eq_of_lt (by omega)]

theorem kept {c : Ctx} {addr : U8} (h : 0x80 ≤ addr.toNat) : appServed c 0 addr = false := by simp [appServed, h]

theorem acc {c : Ctx} {w : W} {addr : U8} (h : settable addr) : accepted c w 0 addr = true := by
  unfold settable at h
  simp only [List.mem_cons, List.not_mem_nil, or_false] at h
  unfold accepted
  rw [if_pos ⟨rfl, by omega⟩]
  simp only [writable, List.contains_eq_mem, List.mem_cons, decide_eq_true_eq]
  omega

theorem write_page {c : Ctx} {w : W} {addr v : U8} (h : addr.toNat ∈ [0x83, 0x84, 0x85, 0x86, 0x87, 0x88]) :
    (Core.writeRegister c 0 addr v w).2.v.page = w.v.page := by
  obtain ⟨n, rfl⟩ : ∃ n, addr = BitVec.ofNat 8 n := ⟨addr.toNat, by simp⟩
  have hn : n % 256 ∈ [0x83, 0x84, 0x85, 0x86, 0x87, 0x88] := by simpa only [BitVec.toNat_ofNat] using h
  rw [show BitVec.ofNat 8 n = BitVec.ofNat 8 (n % 256) from by apply BitVec.eq_of_toNat_eq; simp]
  revert hn
  generalize n % 256 = k
  intro hk
  simp only [List.mem_cons, List.not_mem_nil, or_false] at hk
  rcases hk with rfl | rfl | rfl | rfl | rfl | rfl <;> rfl

theorem write_out (c : Ctx) (page : U16) (l : List (U8 × U8)) (w : W) : ∃ t, (writeRegs c page l w).2.out = w.out ++ t ∧ frames t = [] := by
  induction l generalizing w with
  | nil => exact ⟨[], (List.append_nil _).symm, rfl⟩
  | cons x l ih =>
    obtain ⟨t, h1, h2⟩ := writeRegister_quiet c page x.1 x.2 w
    obtain ⟨t', h3, h4⟩ := ih (Core.writeRegister c page x.1 x.2 w).2
    exact ⟨t ++ t', by rw [← List.append_assoc, ← h1]; exact h3, by rw [frames_append, h2, h4]; rfl⟩

/-- Flags and user id, from register `addr` on. -/
theorem write_all (c : Ctx) : ∀ (vs : List U8) (addr : U8) (w : W), 0x83 ≤ addr.toNat → addr.toNat + vs.length ≤ 0x89 →
    (writeRegs c 0 ((addresses addr vs.length).zip vs) w).1 = vs ∧
      (w.v.page = 0 → writeSelected c ((addresses addr vs.length).zip vs) w = writeRegs c 0 ((addresses addr vs.length).zip vs) w)
  | [], _, _, _, _ => by simp [addresses, writeRegs, writeSelected]
  | v :: vs, addr, w, h1, h2 => by
    rw [List.length_cons] at h2
    have hs : addr.toNat ∈ [0x83, 0x84, 0x85, 0x86, 0x87, 0x88] := by
      simp only [List.mem_cons, List.not_mem_nil, or_false]; omega
    have hs' : addr.toNat ∈ [0x83, 0x84, 0x85, 0x86, 0x87, 0x88, 0x92, 0x93] := by
      simp only [List.mem_cons, List.not_mem_nil, or_false]; omega
    have ha : (addr + 1).toNat = addr.toNat + 1 := by rw [BitVec.toNat_add]; simp; omega
    have hz : addresses addr (v :: vs).length = addr :: addresses (addr + 1) vs.length := by
      simp only [addresses, List.length_cons, List.range_succ_eq_map, List.map_cons, List.map_map]
      refine congr (congrArg List.cons (by simp)) (List.map_congr_left fun i _ => ?_)
      apply BitVec.eq_of_toNat_eq
      have e1 : (1 : U8).toNat = 1 := rfl
      simp only [Function.comp_apply, BitVec.toNat_add, BitVec.toNat_ofNat, e1]
      omega
    obtain ⟨i1, i2⟩ := write_all c vs (addr + 1) (Core.writeRegister c 0 addr v w).2 (by omega) (by omega)
    rw [hz]
    refine ⟨?_, fun hp => ?_⟩
    · simp only [List.zip_cons_cons, writeRegs]
      rw [i1, writeRegister_value hs']
    · simp only [List.zip_cons_cons, writeRegs, writeSelected]
      rw [hp, i2 (by rw [write_page hs]; exact hp)]

theorem map_values {c : Ctx} {w : W} {k n : Nat} {vs : List U8} {rs : List (U16 × U8 × U8)} (hk : k + n ≤ 128) (h : Values c 0 w (addresses (BitVec.ofNat 8 (0x80 + k)) n) vs rs) :
    vs = contents c w k n := by
  have hlen := C16_register_map_complete
  have ha : (addresses (BitVec.ofNat 8 (0x80 + k)) n).length = n := by simp [addresses]
  apply List.ext_getElem
  · rw [h.length, ha]
    simp [contents, hlen]
    omega
  · intro i h1 h2
    have hi : i < n := by rw [h.length, ha] at h1; exact h1
    have hz : (BitVec.ofNat 8 (0x80 + (k + i)), vs[i]) ∈ (addresses (BitVec.ofNat 8 (0x80 + k)) n).zip vs := by
      refine List.mem_iff_getElem.mpr ⟨i, by rw [List.length_zip, ha]; omega, ?_⟩
      rw [List.getElem_zip]
      refine Prod.ext ?_ rfl
      simp only [addresses, List.getElem_map, List.getElem_range]
      apply BitVec.eq_of_toNat_eq
      simp only [BitVec.toNat_add, BitVec.toNat_ofNat]
      omega
    have hv := h.kept _ hz (kept (by rw [ofNat_inj (by omega)]; omega))
    rw [C16_register_map c w (k + i) (by omega)] at hv
    rw [show vs[i] = _ from hv]
    simp [contents]

theorem sends_read {c : Ctx} {w : W} {m : Msg} {k : Nat} (hk : k < registerMap.length) (hm : Request m 9 [w.v.nick, BitVec.ofNat 8 (0x80 + k)]) :
    Sends c m w [(10, [BitVec.ofNat 8 (0x80 + k), registerMap[k].value c w])] := by
  have hh := handle_read c w m _ hm
  rw [C16_register_map c w k hk] at hh
  obtain ⟨t1, ht1, hq1⟩ := ((Foot.readRegister (List.Subset.refl _) : Foot c True [.alarm, .appRead] (Core.readRegister c 0 (BitVec.ofNat 8 (0x80 + k)))) w).quiet
    (by decide) (by simp)
  unfold Sends
  rw [handle, hh, sent_out, ht1]
  exact ⟨_, List.append_assoc .., by rw [frames_append, hq1]; rfl⟩

theorem sends_write {c : Ctx} {w : W} {m : Msg} {addr v : U8} (h : settable addr) (hm : Request m 11 [w.v.nick, addr, v]) : Sends c m w [(10, [addr, v])] := by
  obtain ⟨t, ht, hfr⟩ := writeRegister_quiet c 0 addr v w
  unfold Sends
  rw [handle_write c w m addr v hm]
  simp only [writeRegister_accepted (acc h), if_true]
  rw [sent_out, ht, writeRegister_value h, writeRegister_nick h]
  exact ⟨_, List.append_assoc .., by rw [frames_append, hfr]; rfl⟩

theorem sends_step {c : Ctx} {w : W} {m : Msg} {k : Nat} {d : U8} (hk : k < registerMap.length) (h : settable (BitVec.ofNat 8 (0x80 + k)))
    (hm : Request m 29 [w.v.nick, BitVec.ofNat 8 (0x80 + k)] ∧ d = 1 ∨ Request m 30 [w.v.nick, BitVec.ofNat 8 (0x80 + k)] ∧ d = -1) :
    Sends c m w [(10, [BitVec.ofNat 8 (0x80 + k), registerMap[k].value c w + d])] := by
  refine sends_of_drop ?_ ?_
  · rw [handle_inc c w m _ d hm]
    have hq : ∃ t, (Core.readRegister c 0 (BitVec.ofNat 8 (0x80 + k)) w).2.out = w.out ++ t := by
      obtain ⟨t, ht, -⟩ := ((Foot.readRegister (List.Subset.refl _) : Foot c True [.alarm, .appRead] (Core.readRegister c 0 (BitVec.ofNat 8 (0x80 + k)))) w).quiet
        (by decide) (by simp)
      exact ⟨t, ht⟩
    obtain ⟨t, ht⟩ := hq
    obtain ⟨t', ht', -⟩ := writeRegister_quiet c 0 (BitVec.ofNat 8 (0x80 + k)) ((Core.readRegister c 0 (BitVec.ofNat 8 (0x80 + k)) w).1 + d)
      (Core.readRegister c 0 (BitVec.ofNat 8 (0x80 + k)) w).2
    simp only [writeRegister_accepted (acc h), if_true]
    rw [sent_out, ht', ht]
    exact ⟨_, by rw [List.append_assoc, List.append_assoc]⟩
  · rw [(C26_step c w m _ d hm h).2, C16_register_map c w k hk]
    rfl

theorem sends_info {c : Ctx} {w : W} {m : Msg} (hm : Request m 33 [w.v.nick]) : Sends c m w [(34, matrixInfo c)] := by
  by_cases hp : c.dmPaged = true ∧ c.dm = true
  · have h0 : m.data[0] = w.v.nick := hm.at 0 (by simp) (by simp)
    have hs : m.size = 1 := hm.size
    refine sends_of_drop ?_ ?_
    · rw [handle, dispatch_33 c m hm.typ]
      unfold Core.handleGetDecisionMatrixInfo
      simp only [bind_run, get_run, whenM_run, h0, hs]
      rw [if_pos ⟨trivial, trivial⟩, txVoid_run _ _ _ _ (by split <;> simp), sent_out]
      exact ⟨_, rfl⟩
    · rw [C28_answer_paged c w m hm hp.1 hp.2, matrixInfo, if_pos hp.2, if_pos hp.1]
      rfl
  · have hx : ∃ ok txErr, handle c m w = { w with out := w.out ++ [.tx (event c w.v.nick 3 34 (matrixInfo c)) ok], tp := { w.tp with txErr := txErr } } := by
      by_cases hd : c.dm = true
      · have hp' : c.dmPaged = false := by cases h : c.dmPaged <;> simp_all
        obtain ⟨ok, e, h⟩ := C28_answer c w m hm hp'
        refine ⟨ok, e, ?_⟩
        rw [h, matrixInfo, if_pos hd, if_pos hd, if_neg (by rw [hp']; decide)]
      · have h0 : m.data[0] = w.v.nick := hm.at 0 (by simp) (by simp)
        have hs : m.size = 1 := hm.size
        rw [handle, dispatch_33 c m hm.typ]
        unfold Core.handleGetDecisionMatrixInfo
        simp only [bind_run, get_run, whenM_run, h0, hs]
        rw [if_pos ⟨trivial, trivial⟩, txVoid_run _ _ _ _ (by split <;> simp), sent, Transport.countErr_eq, if_neg hd, matrixInfo, if_neg hd]
        exact ⟨_, _, rfl⟩
    obtain ⟨ok, e, h⟩ := hx
    unfold Sends
    rw [h]
    exact ⟨_, rfl, rfl⟩

theorem identity_contents (c : Ctx) (w : W) : identity c w = contents c w 0x50 48 ++ [0] := by
  have : registerMap.drop 0x50 = [.guid 15, .guid 14, .guid 13, .guid 12, .guid 11, .guid 10, .guid 9, .guid 8,
   .guid 7, .guid 6, .guid 5, .guid 4, .guid 3, .guid 2, .guid 1, .guid 0] ++ (List.range 32).map .mdfUrl := rfl
  unfold contents identity
  rw [this, List.take_of_length_le (by simp), r16, List.map_append, List.map_map]
  rfl

/-- C120: what the table says, the framework sends. -/
theorem C120_sends {c : Ctx} {w : W} {typ : U8} {data : List U8} {F : List (U8 × List U8)} (h : Answers c w typ data F) {m : Msg} (hm : Request m typ data) : Sends c m w F := by
  cases h with
  | read k hk => exact sends_read hk hm
  | write addr v h => exact sends_write h hm
  | readPage k hk n hn hp =>
    obtain ⟨t, vs, h1, h2, h3, -, -⟩ := Pages.C22_page_read_exact c w m _ n hm
    have hmin : min n.toNat (255 - (BitVec.ofNat 8 (0x80 + k)).toNat) = n.toNat := by rw [ofNat_inj hk]; omega
    rw [hmin] at h2 h3
    rw [hp] at h3
    rw [map_values (by omega) h3] at h2
    exact ⟨t, h1, by rw [h2, List.map_map]; rfl⟩
  | writePage addr vs h1 h2 hv hp =>
    have hl : 1 ≤ vs.length := List.length_pos_iff.mpr hv
    obtain ⟨t, e, e1, e2, -⟩ := Pages.C23_page_write_exact c w m addr vs hm hl (by omega)
    have hmin : min vs.length (255 - addr.toNat) = vs.length := by omega
    rw [hmin, List.take_length] at e1 e2
    obtain ⟨q1, q2⟩ := write_all c vs addr w h1 h2
    rw [q2 hp, q1] at e2
    exact ⟨t, congrArg W.out e1, e2⟩
  | up k hk h => exact sends_step hk h (.inl ⟨hm, rfl⟩)
  | down k hk h =>
    have := sends_step (c := c) hk h (d := -1) (.inr ⟨hm, rfl⟩)
    rwa [← BitVec.sub_eq_add_neg] at this
  | who x h =>
    obtain ⟨t, e, h1, -, h2⟩ := C27_answer c w m x hm h
    rw [identity_contents] at h2
    exact ⟨t, congrArg W.out h1, by rw [h2, List.map_map]; rfl⟩
  | info => exact sends_info hm
  | writeExt addr vs h1 h2 hv h4 =>
    have hl : 1 ≤ vs.length := List.length_pos_iff.mpr hv
    obtain ⟨t, e, e1, e2⟩ := Pages.C25_extended_page_write c w m 0 0 addr vs hm hl h4
    have hmin : min vs.length (256 - addr.toNat) = vs.length := by omega
    rw [hmin, List.take_length] at e1 e2
    obtain ⟨q1, -⟩ := write_all c vs addr w h1 h2
    rw [show (BitVec.ofNat 16 ((0 : U8).toNat * 256 + (0 : U8).toNat)) = 0 from rfl, q1] at e2
    exact ⟨t, congrArg W.out e1, e2⟩

/-- The table depends on what the registers show only. -/
theorem moved {c : Ctx} {w w' : W} (hn : w'.v.nick = w.v.nick) (hp : w'.v.page = w.v.page) (hv : ∀ r : Reg, r.value c w' = r.value c w) {typ : U8} {data : List U8} {F : List (U8 × List U8)}
    (h : Answers c w typ data F) : Answers c w' typ data F := by
  cases h with
  | read k hk => rw [← hn, ← hv]; exact .read k hk
  | write addr v h => rw [← hn]; exact .write addr v h
  | readPage k hk n hm h =>
    have e : contents c w k n.toNat = contents c w' k n.toNat := List.map_congr_left fun r _ => (hv r).symm
    rw [← hn, e]
    exact .readPage k hk n hm (hp.trans h)
  | writePage addr vs h1 h2 h3 h => rw [← hn]; exact .writePage addr vs h1 h2 h3 (hp.trans h)
  | up k hk h => rw [← hn, ← hv]; exact .up k hk h
  | down k hk h => rw [← hn, ← hv]; exact .down k hk h
  | who x h =>
    have e : contents c w 0x50 48 = contents c w' 0x50 48 := List.map_congr_left fun r _ => (hv r).symm
    rw [e]
    exact .who x (by rw [hn]; exact h)
  | info => rw [← hn]; exact .info
  | writeExt addr vs h1 h2 h3 h4 => rw [← hn]; exact .writeExt addr vs h1 h2 h3 h4

theorem short {c : Ctx} {w : W} {typ : U8} {data : List U8} {F : List (U8 × List U8)} (h : Answers c w typ data F) : data.length ≤ 8 ∧ ∀ f ∈ F, f.2.length ≤ 8 := by
  cases h with
  | read | write | up | down | info =>
    refine ⟨by simp, ?_⟩
    intro f hf
    cases List.mem_singleton.1 hf
    first | (simp; done) | (unfold matrixInfo; split <;> (try split) <;> simp)
  | readPage | who =>
    refine ⟨by simp, ?_⟩
    intro f hf
    obtain ⟨i, -, rfl⟩ := List.mem_map.1 hf
    simp [numbered]
    omega
  | writePage addr vs h1 h2 h3 h | writeExt addr vs h1 h2 h3 h =>
    refine ⟨by simp; omega, ?_⟩
    intro f hf
    cases List.mem_singleton.1 hf
    simp
    omega

end Vscp.Ask

namespace Vscp.Driver.CanNode
open Vscp.Safety Vscp.Spec Vscp.Spec.CanNode

/-- C120: at any point of a history at which the node is active, has delivered all frames to the framework and the frames which wait for the bus leave room for the answers: a request of the table,
from whatever node, is answered with the frames of the table.  When the bus was free for 14 frames after the next cycle, it has carried exactly the frames of before (`old`: those which waited), the answers, and
what else the node has sent in the cycle. -/
theorem C120_answers {c : Ctx} (hc : GoodCfg c) {cb : Callbacks} (hcb : CbOk cb) (hlb : c.loopback = false) (hpn : c.protoNotify = false) (a : Around) (ok : Tmr → Bool) (ps : Nat → U8)
    (s : CanDrv.State) (l : List Move) (hl : ∀ mv ∈ l, Spec.CanNode.Ok mv) {n : Node} (hn : run c cb a l (boot c cb ok ps s) = .ok n) (ha : n.w.v.st = .active)
    (hu : n.x.2.stored.length = n.heard.length) (prio origin : U8) (hard : Bool) (hp : prio.toNat < 8) {typ : U8} {data : List U8} {F : List (U8 × List U8)} (h : Answers c n.w typ data F)
    (hf : (taken n.w.out).length + F.length ≤ n.x.2.wire.length + 14) {n' : Node}
    (hn' : run c cb a ([.rx (protocol prio hard typ origin data), .cycle] ++ List.replicate 14 .tx) n = .ok n') :
    ∃ old new, old.length + n.x.2.wire.length = (taken n.w.out).length ∧
      n'.x.2.wire.Perm (n.x.2.wire ++ old ++ F.map (fun f => protocol 3 c.hardCoded f.1 n.w.v.nick f.2) ++ new) := by
  refine (exchange hc hcb hlb hpn a ok ps s l hl hn ha hu prio origin hard hp 3 (by decide) typ data (Ask.short h).1 F (Ask.short h).2 hf (fun m hm => ?_) hn').1
  have hni : (preProcess c (some m) n.w).2.v.nick = n.w.v.nick := pre_same c (some m) n.w .nick (by decide)
  have hpg : (preProcess c (some m) n.w).2.v.page = n.w.v.page := pre_same c (some m) n.w .page (by decide)
  obtain ⟨t, h1, h2⟩ := Ask.C120_sends (Ask.moved hni hpg (value_pre c (some m) n.w) h) hm
  exact ⟨t, h1, by rw [h2, hni]⟩

end Vscp.Driver.CanNode

namespace Vscp.Avr.Sys
open M Vscp.Driver Vscp.Spec Vscp.Spec.AvrSys Vscp.Safety
open Vscp.Driver.CanNode (Around Res)

variable {s : Surr} {a : Nat → Around}

theorem drain : ∀ (k : Nat) {y y' : State}, Inv s y → run s a (List.replicate k .tx) y = .ok y' →
    CanNode.run (s.ctx y.fw.life) (s.cb y.fw.life) (a y.fw.life) (List.replicate k .tx) (node y) = .ok (node y') ∧ y'.fw = y.fw ∧ y'.pc = y.pc ∧ y'.heard = y.heard
  | 0, y, y', _, hr => by cases hr; exact ⟨rfl, rfl, rfl, rfl⟩
  | k + 1, y, y', hi, hr => by
    rw [List.replicate_succ] at hr
    obtain ⟨y1, hd, hi1, hr1⟩ := run_does hi (l := List.replicate k .tx) (by intro mv h; rw [List.eq_of_mem_replicate h]; trivial) (mv := .tx) trivial hr
    cases hd with
    | tx x hc =>
      obtain ⟨h1, h2, h3, h4⟩ := drain k hi1 hr1
      refine ⟨?_, h2, h3, h4⟩
      rw [List.replicate_succ]
      simp only [CanNode.run, hc]
      exact h1

/-- What the application says about its registers. -/
theorem app_sends {sz : Nat} {e : Env} {w : W} {typ : U8} {data : List U8} {F : List (U8 × List U8)} (h : Spec.Avr.Answers sz w typ data F) {m : Msg} (hm : Request m typ data) :
    Ask.Sends (Avr.ctx sz e) m w F := by
  have read : ∀ (addr v : U8), Request m 9 [w.v.nick, addr] → addr.toNat < 0x80 → readRegister sz w.ps 0 addr = v → Ask.Sends (Avr.ctx sz e) m w [(10, [addr, v])] := by
    intro addr v hm hr hv
    have hh := handle_read (Avr.ctx sz e) w m addr hm
    rw [appServed_run (AvrProps.served hr)] at hh
    unfold Ask.Sends
    rw [Registers.handle, hh, sent_out]
    refine ⟨_, List.append_assoc .., ?_⟩
    show frames [Out.appRead 0 addr _, Out.tx (event (Avr.ctx sz e) w.v.nick 3 10 [addr, readRegister sz w.ps 0 addr]) _] = _
    rw [hv]
    rfl
  cases h with
  | zone => exact read 0 _ hm (by decide) rfl
  | subZone => exact read 1 _ hm (by decide) rfl
  | none addr h1 h2 =>
    refine read addr 0 hm h2 ?_
    unfold readRegister
    rw [if_pos rfl, if_pos (by omega), if_neg (by rintro rfl; exact absurd h1 (by decide)), if_neg (by rintro rfl; exact absurd h1 (by decide))]
  | setZone addr v h hw =>
    have hr : addr.toNat < 0x80 := by rcases h with rfl | rfl <;> decide
    have hac : accepted (Avr.ctx sz e) w 0 addr = true := by
      unfold accepted
      rw [if_neg (fun h => by have := h.2; omega)]
      exact hw
    have hh := Registers.handle_write (Avr.ctx sz e) w m addr v hm
    obtain ⟨t, ht, hfr⟩ := writeRegister_quiet (Avr.ctx sz e) 0 addr v w
    simp only [writeRegister_accepted hac, if_true] at hh
    unfold Ask.Sends
    rw [hh, sent_out, ht]
    have hv : (Core.writeRegister (Avr.ctx sz e) 0 addr v w).1.1 = v ∧ (Core.writeRegister (Avr.ctx sz e) 0 addr v w).2.v.nick = w.v.nick := by
      rw [writeRegister_app hac (AvrProps.served hr)]
      refine ⟨?_, rfl⟩
      rcases h with rfl | rfl <;> rfl
    rw [hv.1, hv.2]
    exact ⟨_, List.append_assoc .., by rw [frames_append, hfr]; rfl⟩

section
variable {past : List Out} {n : Nat} {ps : Nat → U8} {ctl : CanDrv.State} {l : List Move} (hl : ∀ mv ∈ l, AvrSys.Ok mv) {y : State}
  (hr : run s a l (boot s past n ps ctl) = .ok y) (hn : y.fw.life = n) (ha : y.fw.w.v.st = .active) (hpc : y.pc = .process) (hu : y.x.2.stored.length = y.heard.length)
include hl hr hn ha hpc hu

theorem asked {b : CanDrv.BusFrame} (hv : Spec.CanDrv.Valid b) {y' : State} (hr' : run s a ([.rx b, .step] ++ List.replicate 14 .tx) y = .ok y') :
    CanNode.run (s.ctx n) (s.cb n) (a n) ([.rx b, .cycle] ++ List.replicate 14 .tx) (node y) = .ok (node y') := by
  have hi : Inv s y := by
    rcases run_inv l (boot_inv past n ps ctl) hl (a := a) with e | ⟨y', e, h⟩
    · rw [hr] at e; cases e
    · rw [hr] at e; cases e; exact h
  rw [run_append] at hr'
  cases h1 : run s a [.rx b, .step] y with
  | ub => rw [h1] at hr'; cases hr'
  | impossible => rw [h1] at hr'; cases hr'
  | ok y1 =>
    rw [h1] at hr'
    dsimp only at hr'
    have hi1 : Inv s y1 := by
      rcases run_inv [.rx b, .step] hi (a := a) (by simp [AvrSys.Ok, hv]) with e | ⟨y', e, h⟩
      · rw [h1] at e; cases e
      · rw [h1] at e; cases e; exact h
    obtain ⟨m, x, -, -, e, hc⟩ := got_frame hi (by rw [ha]; decide) hpc hu hv h1
    have hlife : y1.fw.life = n := by rw [e]; exact hn
    obtain ⟨h2, -, -, -⟩ := drain 14 hi1 hr'
    rw [CanNode.run_append, ← hn, hc]
    dsimp only
    rw [← hn] at hlife
    rw [hlife] at h2
    exact h2

/-- C120: at any point of a history at which the example is active, has delivered all frames to the framework, is at the beginning of the main loop, and the frames which wait for the bus leave room for the
answers: a request of the tables, from whatever node, is answered with the frames of the tables: when the bus was free for 14 frames after the next step of the main loop, it has carried exactly the frames of
before (`old`: those which waited), the answers, and what else the example has sent in this step. -/
theorem C120_example (prio origin : U8) (hard : Bool) (hp : prio.toNat < 8) {typ : U8} {data : List U8} {F : List (U8 × List U8)}
    (h : Answers (s.ctx n) y.fw.w typ data F ∨ Spec.Avr.Answers s.sz y.fw.w typ data F)
    (hf : (CanNode.taken y.fw.w.out).length + F.length ≤ y.x.2.wire.length + 14) {y' : State}
    (hr' : run s a ([.rx (Spec.CanNode.protocol prio hard typ origin data), .step] ++ List.replicate 14 .tx) y = .ok y') :
    ∃ old new, old.length + y.x.2.wire.length = (CanNode.taken y.fw.w.out).length ∧
      y'.x.2.wire.Perm (y.x.2.wire ++ old ++ F.map (fun f => Spec.CanNode.protocol 3 false f.1 y.fw.w.v.nick f.2) ++ new) := by
  have hs : data.length ≤ 8 ∧ ∀ f ∈ F, f.2.length ≤ 8 := by
    rcases h with h | h
    · exact Ask.short h
    · cases h <;> refine ⟨by simp, ?_⟩ <;> intro f hf <;> cases List.mem_singleton.1 hf <;> simp
  have hrun := asked hl hr hn ha hpc hu (CanNode.protocol_valid hp hs.1) hr'
  obtain ⟨ps', ctl', lc, h1, -, h2⟩ := reach hl hr hn
  rw [hn] at h2
  refine (CanNode.exchange (AvrProps.good s.sz (s.env n)) (AvrProps.cb_ok _) rfl rfl (a n) allOk ps' ctl' lc h1 h2 ha hu prio origin hard hp 3 (by decide) typ data hs.1 F hs.2 hf (fun m hm => ?_) hrun).1
  have hni : (preProcess (s.ctx n) (some m) y.fw.w).2.v.nick = y.fw.w.v.nick := pre_same _ (some m) y.fw.w .nick (by decide)
  have hpg : (preProcess (s.ctx n) (some m) y.fw.w).2.v.page = y.fw.w.v.page := pre_same _ (some m) y.fw.w .page (by decide)
  have hps : (preProcess (s.ctx n) (some m) y.fw.w).2.ps = y.fw.w.ps := pre_same _ (some m) y.fw.w .ps (by decide)
  rcases h with h | h
  · obtain ⟨t, h1, h2⟩ := Ask.C120_sends (Ask.moved hni hpg (CanNode.value_pre (s.ctx n) (some m) y.fw.w) h) hm
    exact ⟨t, h1, by rw [h2, hni]; rfl⟩
  · show ∃ t, (Registers.handle (s.ctx n) m (preProcess (s.ctx n) (some m) y.fw.w).2).out = (preProcess (s.ctx n) (some m) y.fw.w).2.out ++ t ∧
      frames t = F.map fun f => event (s.ctx n) y.fw.w.v.nick 3 f.1 f.2
    generalize (preProcess (s.ctx n) (some m) y.fw.w).2 = w1 at *
    rw [← hni]
    have h' : Spec.Avr.Answers s.sz w1 typ data F := by
      cases h with
      | zone => rw [← hni, ← hps]; exact .zone
      | subZone => rw [← hni, ← hps]; exact .subZone
      | none addr h1 h2 => rw [← hni]; exact .none addr h1 h2
      | setZone addr v h1 h2 => rw [← hni]; exact .setZone addr v h1 (by rw [hps]; exact h2)
    exact app_sends h' hm

end

/-- Requests for each line of the tables (to node 5, page 0 is selected). -/
def exAsks : List (U8 × List U8) := [(9, [5, 0x95]), (11, [5, 0x84, 7]), (24, [5, 0xD0, 16]), (25, [5, 0x84, 1, 2, 3, 4, 5]), (29, [5, 0x84]), (30, [5, 0x92]), (31, [0xFF]), (33, [5]), (38, [5, 0, 0, 0x85, 9, 8]),
  (9, [5, 0]), (9, [5, 1]), (9, [5, 0x33]), (11, [5, 1, 0x44])]

/-- The hypotheses of `C120_example` are met after a run of the main loop: the example is active with nickname 5, at the beginning of the main loop, with page 0 selected and writes enabled, all frames are
delivered and one waits for the bus. -/
example : (∀ mv ∈ exMs false, AvrSys.Ok mv) ∧ (match exHist (exMs false) with
    | .ok y => decide (y.fw.w.v.st = .active ∧ y.fw.w.v.nick = 5 ∧ y.pc = .process ∧ y.fw.w.v.page = 0 ∧ writeEnable (y.fw.w.ps (Ps.addrFlags (Avr.cfg AvrProps.exSurr.sz))) = true ∧
        y.x.2.stored.length = y.heard.length ∧ (CanNode.taken y.fw.w.out).length = y.x.2.wire.length + 1)
    | _ => false) = true := by
  refine ⟨fun mv h => ?_, by decide +kernel⟩
  simp only [exMs, List.mem_cons, List.not_mem_nil, or_false] at h
  rcases h with rfl | rfl | rfl | rfl | rfl <;> trivial

/-- ... and the requests are answered: the last data on the bus for each of them, and the number of frames. -/
example : exAsks.map (fun q => match exHist (exMs false ++ ([.rx (Spec.CanNode.protocol 3 false q.1 1 q.2), .step] ++ List.replicate 14 .tx)) with
      | .ok y => (y.x.2.wire.length, (y.x.2.wire.getLastD ⟨true, false, 0, 0, []⟩).data)
      | _ => (0, [])) =
    [(2, [149, 2]), (2, [132, 7]), (4, [2, 0, 1]), (2, [0, 1, 2, 3, 4, 5]), (2, [132, 1]), (2, [146, 255]), (8, [6, 49, 46, 120, 109, 108, 0, 0]), (2, [2, 0, 0, 1]), (2, [0, 0, 0, 133, 9, 8]), (2, [0, 7]), (2, [1, 8]), (2, [51, 0]), (2, [1, 68])] := by decide +kernel

end Vscp.Avr.Sys
