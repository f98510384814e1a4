/-
Register writes.
-/
import Verif.Lemmas.Regs
import Verif.Spec.Trace
import Verif.Lemmas.Trace

namespace Vscp
open M Spec

/-! ### Steps without transmission -/

theorem traceOf_frames (l : List (Nat × U8)) : frames (traceOf l) = [] := by
  unfold frames traceOf; rw [List.filterMap_map]; simp [List.filterMap_eq_nil_iff]

/-- A step which is no transmission adds no frame to the trace. -/
theorem Step.quiet {c : Ctx} {bad : Prop} {a : Act} (h1 : a ≠ .tx) (h2 : ∀ m, a ≠ .userTx m) {w w' : W}
    (h : Step c bad a w w') : ∃ t, w'.out = w.out ++ t ∧ frames t = [] := by
  cases a
  case tx => exact absurd rfl h1
  case userTx m => exact absurd rfl (h2 m)
  case restore =>
    unfold Step at h; subst h; rw [restore_run]
    exact ⟨_, rfl, by rw [frames_append, traceOf_frames]; rfl⟩
  case lbRead =>
    obtain ⟨rx, _, rfl⟩ := h
    obtain ⟨tp, ub, e⟩ := readMessage_frame' c rx w
    rw [e]; exact ⟨[], by simp, rfl⟩
  case lbInit =>
    unfold Step at h; subst h
    obtain ⟨tp, ub, e⟩ := tpInit_frame c w
    rw [e]; exact ⟨[], by simp, rfl⟩
  case nick => obtain ⟨_, rfl⟩ := h; exact ⟨[_], rfl, rfl⟩
  case seg => obtain ⟨_, rfl⟩ := h; exact ⟨[_], rfl, rfl⟩
  case flags => obtain ⟨_, rfl⟩ := h; exact ⟨[_], rfl, rfl⟩
  case user => obtain ⟨_, _, _, rfl⟩ := h; exact ⟨[_], rfl, rfl⟩
  case boot => obtain ⟨_, _, rfl⟩ := h; exact ⟨[_], rfl, rfl⟩
  case dmW => obtain ⟨_, _, _, _, rfl⟩ := h; exact ⟨[_], rfl, rfl⟩
  case dmIdx => obtain ⟨_, _, rfl⟩ := h; exact ⟨[], by simp, rfl⟩
  case ngW => obtain ⟨_, _, _, _, rfl⟩ := h; exact ⟨[_], rfl, rfl⟩
  case appWrite => obtain ⟨_, _, _, _, rfl⟩ := h; rw [appWriteRegister_run]; exact ⟨_, (List.append_assoc ..), traceOf_frames _⟩
  case appRead => obtain ⟨_, _, _, rfl⟩ := h; exact ⟨[_], rfl, rfl⟩
  case ngVars => obtain ⟨_, _, rfl⟩ := h; exact ⟨[], by simp, rfl⟩
  case alarm => unfold Step at h; subst h; exact ⟨[], by simp, rfl⟩
  case page => obtain ⟨_, rfl⟩ := h; exact ⟨[], by simp, rfl⟩
  case ext => obtain ⟨_, rfl⟩ := h; exact ⟨[], by simp, rfl⟩
  case guid => obtain ⟨_, rfl⟩ := h; exact ⟨[], by simp, rfl⟩
  case st s => obtain ⟨_, rfl⟩ := h; exact ⟨lampCalls s, rfl, by cases s <;> rfl⟩
  case ist => obtain ⟨_, _, rfl⟩ := h; exact ⟨[], by simp, rfl⟩
  case sec => obtain ⟨_, rfl⟩ := h; exact ⟨[], by simp, rfl⟩
  case idleEntered => unfold Step at h; subst h; exact ⟨[_], rfl, rfl⟩
  case errorEntered => unfold Step at h; subst h; exact ⟨[_], rfl, rfl⟩
  case bootReq => unfold Step at h; subst h; exact ⟨[_], rfl, rfl⟩
  case event => obtain ⟨_, rfl⟩ := h; exact ⟨[_], rfl, rfl⟩
  case protoEvent => obtain ⟨_, _, rfl⟩ := h; exact ⟨[_], rfl, rfl⟩
  case action => obtain ⟨_, _, _, rfl⟩ := h; exact ⟨[_], rfl, rfl⟩
  case timeUpdate => obtain ⟨_, rfl⟩ := h; exact ⟨[_], rfl, rfl⟩
  case customHb => unfold Step at h; subst h; exact ⟨[_], rfl, rfl⟩
  case resetReq => obtain ⟨_, rfl⟩ := h; exact ⟨[_], rfl, rfl⟩
  case epochSet => obtain ⟨_, rfl⟩ := h; exact ⟨[], by simp, rfl⟩
  case tm => obtain ⟨_, rfl⟩ := h; exact ⟨[], by simp, rfl⟩
  case ub => obtain ⟨_, rfl⟩ := h; exact ⟨[], by simp, rfl⟩
  case rxVar => obtain ⟨_, rfl⟩ := h; exact ⟨[], by simp, rfl⟩
  case lg => obtain ⟨_, rfl⟩ := h; exact ⟨[], by simp, rfl⟩
  case tick => obtain ⟨_, rfl⟩ := h; exact ⟨[], by simp, rfl⟩
  case tmInit => obtain ⟨_, rfl⟩ := h; exact ⟨[], by simp, rfl⟩
  case initVars => obtain ⟨_, rfl⟩ := h; exact ⟨[_], rfl, rfl⟩
  case dmInit => unfold Step at h; subst h; exact ⟨[], by simp, rfl⟩
  case alarmOr => obtain ⟨_, rfl⟩ := h; exact ⟨[], by simp, rfl⟩
  case hb => unfold Step at h; subst h; exact ⟨[], by simp, rfl⟩
  case errClr => unfold Step at h; subst h; exact ⟨[], by simp, rfl⟩

theorem Steps.quiet {c : Ctx} {bad : Prop} {A : List Act} (h1 : Act.tx ∉ A) (h2 : ∀ m, Act.userTx m ∉ A) {w w' : W}
    (h : Steps c bad A w w') : ∃ t, w'.out = w.out ++ t ∧ frames t = [] := by
  refine h.rel (R := fun w w' => ∃ t, w'.out = w.out ++ t ∧ frames t = []) (fun w => ⟨[], by simp, rfl⟩) ?_ ?_
  · rintro w w' w'' ⟨t, ht, hf⟩ ⟨t', ht', hf'⟩
    exact ⟨t ++ t', by rw [ht', ht, List.append_assoc], by rw [frames_append, hf, hf']; rfl⟩
  · intro a ha w w' hs
    exact hs.quiet (fun e => h1 (e ▸ ha)) (fun m e => h2 m (e ▸ ha))

theorem writeRegister_quiet (c : Ctx) (page : U16) (addr v : U8) (w : W) :
    ∃ t, (Core.writeRegister c page addr v w).2.out = w.out ++ t ∧ frames t = [] :=
  (Foot.writeRegister (c := c) (bad := False) (A := writeActs) (List.Subset.refl _) w).quiet (by decide)
    (by simp [writeActs])

/-! ### Acceptance -/

/-- Is the register write accepted? -/
def accepted (c : Ctx) (w : W) (page : U16) (addr : U8) : Bool :=
  if page = 0 ∧ 0x80 ≤ addr.toNat then writable addr else writeEnable (w.ps (Ps.addrFlags c))

theorem writable_cases : ∀ addr : U8, 0x80 ≤ addr.toNat → writable addr = true →
    addr.toNat = 0x83 ∨ (0x84 ≤ addr.toNat ∧ addr.toNat ≤ 0x88) ∨ addr.toNat = 0x92 ∨ addr.toNat = 0x93 ∨
      addr.toNat = 0xA2 := by decide +kernel

theorem not_writable_cases : ∀ addr : U8, 0x80 ≤ addr.toNat → writable addr = false →
    ¬ addr.toNat = 0x83 ∧ ¬ (0x84 ≤ addr.toNat ∧ addr.toNat ≤ 0x88) ∧ ¬ addr.toNat = 0x92 ∧ ¬ addr.toNat = 0x93 ∧
      ¬ addr.toNat = 0xA2 := by decide +kernel

theorem protect_run (c : Ctx) (w : W) :
    Core.getRegAppWriteProtect c w = ((w.ps (Ps.addrFlags c) >>> 5) &&& 0x01, w) := rfl

theorem writeRegister_rejected {c : Ctx} {w : W} {page : U16} {addr : U8} (h : accepted c w page addr = false) (v : U8) :
    Core.writeRegister c page addr v w = ((0, true), w) := by
  unfold accepted at h
  unfold Core.writeRegister
  by_cases hp : page = 0 ∧ 0x80 ≤ addr.toNat
  · rw [if_pos hp] at h
    obtain ⟨h1, h2, h3, h4, h5⟩ := not_writable_cases addr hp.2 h
    rw [if_pos ⟨hp.1, hp.2, by have := addr.isLt; omega⟩]
    unfold Core.writeVscpRegister
    simp only [h1, h2, h3, h4, h5, if_false]
    rfl
  · rw [if_neg hp] at h
    rw [if_neg (fun e => hp ⟨e.1, e.2.1⟩), bind_run, protect_run]
    simp only
    rw [if_neg]
    · rfl
    · intro hw
      have := (writeEnabled_iff _).1 hw
      rw [h] at this; cases this

theorem writeEnabled_of {c : Ctx} {w : W} (h : writeEnable (w.ps (Ps.addrFlags c)) = true) :
    (w.ps (Ps.addrFlags c) >>> 5) &&& 0x01 ≠ 0 := (writeEnabled_iff _).2 h

/-- A write to a register outside of the VSCP registers. -/
theorem writeRegister_outer {c : Ctx} {w : W} {page : U16} {addr : U8} (hp : ¬(page = 0 ∧ 0x80 ≤ addr.toNat))
    (h : accepted c w page addr = true) (v : U8) :
    Core.writeRegister c page addr v w =
      let r := (if c.dm ∧ Dm.isDecisionMatrix c page addr then Dm.writeRegister c page addr v
        else if c.dmNg ∧ DmNg.isDecisionMatrix c page addr then DmNg.writeRegister c page addr v
        else Core.appWriteRegister c page addr v) w
      ((r.1, false), r.2) := by
  unfold accepted at h
  rw [if_neg hp] at h
  unfold Core.writeRegister
  rw [if_neg (fun e => hp ⟨e.1, e.2.1⟩), bind_run, protect_run]
  simp only
  rw [if_pos (writeEnabled_of h)]
  rfl

theorem writeRegister_accepted {c : Ctx} {w : W} {page : U16} {addr : U8} (h : accepted c w page addr = true) (v : U8) :
    (Core.writeRegister c page addr v w).1.2 = false := by
  by_cases hp : page = 0 ∧ 0x80 ≤ addr.toNat
  · unfold accepted at h
    rw [if_pos hp] at h
    unfold Core.writeRegister
    rw [if_pos ⟨hp.1, hp.2, by have := addr.isLt; omega⟩]
    unfold Core.writeVscpRegister
    by_cases e1 : addr.toNat = 0x83
    · rw [if_pos e1]; rfl
    · rw [if_neg e1]
      by_cases e2 : 0x84 ≤ addr.toNat ∧ addr.toNat ≤ 0x88
      · rw [if_pos e2]; rfl
      · rw [if_neg e2]
        by_cases e3 : addr.toNat = 0x92
        · rw [if_pos e3]; rfl
        · rw [if_neg e3]
          by_cases e4 : addr.toNat = 0x93
          · rw [if_pos e4]; rfl
          · rw [if_neg e4]
            rcases writable_cases addr hp.2 h with h | h | h | h | h
            · exact absurd h e1
            · exact absurd h e2
            · exact absurd h e3
            · exact absurd h e4
            · rw [if_pos h]; rfl
  · rw [writeRegister_outer hp h]

theorem appServed_iff {c : Ctx} {page : U16} {addr : U8} : appServed c page addr = true ↔
    ¬(page = 0 ∧ 0x80 ≤ addr.toNat) ∧ ¬(c.dm = true ∧ Dm.isDecisionMatrix c page addr = true) ∧
      ¬(c.dmNg = true ∧ DmNg.isDecisionMatrix c page addr = true) := by
  simp only [appServed, Bool.and_eq_true, Bool.not_eq_true', decide_eq_false_iff_not, Bool.and_eq_false_iff]
  cases c.dm <;> cases Dm.isDecisionMatrix c page addr <;> cases c.dmNg <;> cases DmNg.isDecisionMatrix c page addr <;> simp

theorem writeRegister_app {c : Ctx} {w : W} {page : U16} {addr : U8} (h : accepted c w page addr = true)
    (ha : appServed c page addr = true) (v : U8) : Core.writeRegister c page addr v w =
      ((c.appWrite w.out.length w.ps page addr v, false),
        writeAll (Core.appStores c w.out.length page addr v)
          { w with out := w.out ++ [.appWrite page addr v (c.appWrite w.out.length w.ps page addr v)] }) := by
  obtain ⟨h1, h2, h3⟩ := appServed_iff.1 ha
  rw [writeRegister_outer h1 h, if_neg h2, if_neg h3]
  simp only [Core.appWriteRegister, bind_run, get_run, emit_run, pure_run, Writes.writeAll _ _]

/-- What the application does in a write of its register. -/
theorem appStores_trace (c : Ctx) (n : Nat) (page : U16) (addr v : U8) :
    ∀ o ∈ traceOf (Core.appStores c n page addr v), storesZone c o := by
  intro o ho
  obtain ⟨x, hx, rfl⟩ := List.mem_map.mp ho
  exact appStores_mem c n page addr v x hx

theorem appStores_frames (c : Ctx) (n : Nat) (page : U16) (addr v : U8) : frames (traceOf (Core.appStores c n page addr v)) = [] :=
  traceOf_frames _

/-! ### The reported value -/

theorem writeIdx_readIdx (a s i : Nat) (v : U8) (w : W) :
    (Ps.readIdx a s i (Ps.writeIdx a s i v w).2).1 = if s > i then v else 0 := by
  unfold Ps.readIdx Ps.writeIdx
  by_cases h : s > i
  · simp [h]
  · simp [h]

theorem dm_index_some {c : Ctx} {page : U16} {addr : U8} (h : Dm.isDecisionMatrix c page addr = true) :
    ∃ r o, Dm.calculateMatrixIndex c page addr = some (r, o) := by
  unfold Dm.calculateMatrixIndex; rw [if_pos h]; exact ⟨_, _, rfl⟩

set_option maxRecDepth 4000 in
theorem writeRegister_truthful_aux {c : Ctx} {w : W} {addr : U8} (hw : writable addr = true) (hv : 0x80 ≤ addr.toNat) (v : U8)
    {w' : W} (hs : Same (Core.writeRegister c 0 addr v w).2 w') :
    (Core.readRegister c 0 addr w').1 = (Core.writeRegister c 0 addr v w).1.1 := by
  have ha : appServed c 0 addr = false := by simp [appServed, hv]
  have hne : addr ≠ 0x80 := fun e => by subst e; revert hw; decide
  rw [readRegister_same ha hs (fun _ e => absurd e hne)]
  have hr : ∀ w, Core.readRegister c 0 addr w = Core.readVscpRegister c addr w := fun w => by
    unfold Core.readRegister; rw [if_pos ⟨rfl, hv, by have := addr.isLt; omega⟩]
  rw [hr]
  have hw' : Core.writeRegister c 0 addr v w = Core.writeVscpRegister c addr v w := by
    unfold Core.writeRegister; rw [if_pos ⟨rfl, hv, by have := addr.isLt; omega⟩]
  rw [hw']
  obtain ⟨n, hn⟩ : ∃ n, addr = BitVec.ofNat 8 n ∧ n ∈ [0x83, 0x84, 0x85, 0x86, 0x87, 0x88, 0x92, 0x93, 0xA2] := by
    refine ⟨addr.toNat, by simp, ?_⟩
    simpa [writable] using hw
  obtain ⟨rfl, hn⟩ := hn
  simp only [List.mem_cons, List.not_mem_nil, or_false] at hn
  rcases hn with rfl | rfl | rfl | rfl | rfl | rfl | rfl | rfl | rfl <;> rfl

/-- The value reported by a write is the one a following read delivers. -/
theorem writeRegister_truthful {c : Ctx} {w : W} {page : U16} {addr : U8} (h : accepted c w page addr = true)
    (ha : appServed c page addr = false) (hp : c.dm = true → c.dmPaged = false) (v : U8) {w' : W}
    (hs : Same (Core.writeRegister c page addr v w).2 w') :
    (Core.readRegister c page addr w').1 = (Core.writeRegister c page addr v w).1.1 := by
  by_cases hv : page = 0 ∧ 0x80 ≤ addr.toNat
  · obtain ⟨rfl, hv⟩ := hv
    have hw : writable addr = true := by unfold accepted at h; rwa [if_pos ⟨rfl, hv⟩] at h
    exact writeRegister_truthful_aux hw hv v hs
  · rw [readRegister_same ha hs (fun e1 e2 => absurd ⟨e1, by subst e2; decide⟩ hv), writeRegister_outer hv h]
    have hr : Core.readRegister c page addr =
        (if c.dm ∧ Dm.isDecisionMatrix c page addr then Dm.readRegister c page addr
        else if c.dmNg ∧ DmNg.isDecisionMatrix c page addr then DmNg.readRegister c page addr
        else Core.appReadRegister c page addr) := by
      unfold Core.readRegister; rw [if_neg (fun e => hv ⟨e.1, e.2.1⟩)]
    rw [hr]
    by_cases h1 : c.dm ∧ Dm.isDecisionMatrix c page addr
    · rw [if_pos h1, if_pos h1]
      obtain ⟨r, o, e⟩ := dm_index_some h1.2
      unfold Dm.readRegister Dm.writeRegister
      rw [hp h1.1, if_neg (by simp), if_neg (by simp)]
      unfold Dm.readRegisterStd Dm.writeRegisterStd
      rw [e]
      simp only [bind_run]
      rw [Ps.readDm, readIdx_snd]
    · rw [if_neg h1, if_neg h1]
      by_cases h2 : c.dmNg ∧ DmNg.isDecisionMatrix c page addr
      · rw [if_pos h2, if_pos h2]
        unfold DmNg.readRegister DmNg.writeRegister
        by_cases h3 : c.ngPage ≤ page.toNat
        · rw [if_pos h3, if_pos h3]
          simp only [bind_run]
          rw [Ps.readDmNg, readIdx_snd]
        · have := h2.2
          unfold DmNg.isDecisionMatrix at this
          exfalso
          simp only [h3] at this
          simp at this
      · exact absurd (appServed_iff.2 ⟨hv, h1, h2⟩) (by rw [ha]; simp)

theorem wordMsb_set (p : U16) (v : U8) : wordMsb ((p &&& 0x00FF) ||| (v.setWidth 16 <<< 8)) = v := by
  unfold wordMsb
  apply BitVec.eq_of_getLsbD_eq
  intro i hi
  have h1 : 8 + i < 16 := by omega
  have h2 : i < 16 := by omega
  have h3 : ¬ 8 + i < 8 := by omega
  have h : (0xFF#16)[8 + i] = false := by
    revert i; decide
  simp [hi, h, h1, h2]

theorem wordLsb_set (p : U16) (v : U8) : wordLsb ((p &&& 0xFF00) ||| v.setWidth 16) = v := by
  unfold wordLsb
  apply BitVec.eq_of_getLsbD_eq
  intro i hi
  simp [hi]

theorem writeRegister_vscp_truthful {c : Ctx} {w : W} {addr : U8} (h : accepted c w 0 addr = true)
    (ha : 0x80 ≤ addr.toNat) (v : U8) {w' : W} (hs : Same (Core.writeRegister c 0 addr v w).2 w') :
    (Core.readRegister c 0 addr w').1 = (Core.writeRegister c 0 addr v w).1.1 := by
  have hw : writable addr = true := by unfold accepted at h; rwa [if_pos ⟨rfl, ha⟩] at h
  exact writeRegister_truthful_aux hw ha v hs

set_option maxRecDepth 8000 in
theorem writeRegister_value {c : Ctx} {w : W} {addr v : U8}
    (h : addr.toNat ∈ [0x83, 0x84, 0x85, 0x86, 0x87, 0x88, 0x92, 0x93]) : (Core.writeRegister c 0 addr v w).1.1 = v := by
  obtain ⟨n, rfl⟩ : ∃ n, addr = BitVec.ofNat 8 n := ⟨addr.toNat, by simp⟩
  have hn : n % 256 ∈ [0x83, 0x84, 0x85, 0x86, 0x87, 0x88, 0x92, 0x93] := by simpa only [BitVec.toNat_ofNat] using h
  rw [show BitVec.ofNat 8 n = BitVec.ofNat 8 (n % 256) from by apply BitVec.eq_of_toNat_eq; simp]
  revert hn
  generalize n % 256 = k
  intro hn
  simp only [List.mem_cons, List.not_mem_nil, or_false] at hn
  rcases hn with rfl | rfl | rfl | rfl | rfl | rfl | rfl | rfl
  iterate 6 exact if_pos rfl
  · exact wordMsb_set _ _
  · exact wordLsb_set _ _

theorem writeRegister_nick {c : Ctx} {w : W} {addr v : U8}
    (h : addr.toNat ∈ [0x83, 0x84, 0x85, 0x86, 0x87, 0x88, 0x92, 0x93]) :
    (Core.writeRegister c 0 addr v w).2.v.nick = w.v.nick := by
  obtain ⟨n, rfl⟩ : ∃ n, addr = BitVec.ofNat 8 n := ⟨addr.toNat, by simp⟩
  have hn : n % 256 ∈ [0x83, 0x84, 0x85, 0x86, 0x87, 0x88, 0x92, 0x93] := by simpa only [BitVec.toNat_ofNat] using h
  rw [show BitVec.ofNat 8 n = BitVec.ofNat 8 (n % 256) from by apply BitVec.eq_of_toNat_eq; simp]
  revert hn
  generalize n % 256 = k
  intro hn
  simp only [List.mem_cons, List.not_mem_nil, or_false] at hn
  rcases hn with rfl | rfl | rfl | rfl | rfl | rfl | rfl | rfl <;> rfl

/-! ### Sequences of frames -/

/-- Transmission of protocol frames with the given payloads. -/
def sendAll (c : Ctx) (prio typ : U8) (ls : List (List U8)) (w : W) : W :=
  ls.foldl (fun w l => sent c (frame c w prio typ l) w) w

theorem sendAll_append (c : Ctx) (prio typ : U8) (l l' : List (List U8)) (w : W) :
    sendAll c prio typ (l ++ l') w = sendAll c prio typ l' (sendAll c prio typ l w) := by
  simp [sendAll, List.foldl_append]

theorem sendAll_run (c : Ctx) (prio typ : U8) (ls : List (List U8)) (w : W) : ∃ t txErr,
    sendAll c prio typ ls w = { w with out := w.out ++ t, tp := { w.tp with txErr := txErr } } ∧
      frames t = ls.map (event c w.v.nick prio typ) ∧ t.length = ls.length := by
  induction ls generalizing w with
  | nil => exact ⟨[], w.tp.txErr, by simp [sendAll], rfl, rfl⟩
  | cons l ls ih =>
    obtain ⟨t, e, h1, h2, h3⟩ := ih (sent c (frame c w prio typ l) w)
    refine ⟨.tx (frame c w prio typ l) (c.txOk w.out.length) :: t, e, ?_, ?_, by simp [h3]⟩
    · show sendAll c prio typ ls (sent c (frame c w prio typ l) w) = _
      rw [h1, sent, Transport.countErr_eq]
      simp
    · rw [show frames (.tx (frame c w prio typ l) (c.txOk w.out.length) :: t) = frame c w prio typ l :: frames t from rfl, h2]
      simp

@[simp] theorem sendAll_ps (c : Ctx) (prio typ : U8) (ls : List (List U8)) (w : W) : (sendAll c prio typ ls w).ps = w.ps := by
  obtain ⟨t, e, h, _⟩ := sendAll_run c prio typ ls w
  rw [h]

/-- The payloads of the frames sent, the bytes of the frame under construction and the next frame number. -/
def whoPure : List U8 → List U8 → U8 → List (List U8) × List U8 × U8
  | [], acc, row => ([], acc, row)
  | v :: vs, acc, row =>
    if 8 ≤ (acc ++ [v]).length then
      let r := whoPure vs [row] (row + 1)
      ((acc ++ [v]) :: r.1, r.2)
    else whoPure vs (acc ++ [v]) row

theorem whoPure_length (vs acc : List U8) (row : U8) (h : acc.length < 8) : (whoPure vs acc row).2.1.length < 8 := by
  induction vs generalizing acc row with
  | nil => exact h
  | cons v vs ih =>
    unfold whoPure
    split
    · exact ih _ _ (by simp)
    · exact ih _ _ (by omega)

theorem whoLoop_run (c : Ctx) (rd : Nat → M U8) (f : Nat → U8) (ps : Nat → U8) (hrd : ∀ i w, w.ps = ps → rd i w = (f i, w))
    (is : List Nat) (acc : List U8) (row : U8) (ha : acc.length < 8) {w : W} (hw : w.ps = ps) :
    Core.whoLoop c rd is acc row w =
      ((whoPure (is.map f) acc row).2, sendAll c 3 32 (whoPure (is.map f) acc row).1 w) := by
  induction is generalizing acc row w with
  | nil => rfl
  | cons i is ih =>
    unfold Core.whoLoop
    rw [bind_run, hrd i w hw]
    simp only [List.map_cons]
    unfold whoPure
    by_cases h : 8 ≤ (acc ++ [f i]).length
    · rw [if_pos h, if_pos h, bind_run, txVoid_run _ _ _ _ (by simp; omega)]
      simp only
      rw [ih _ _ (by simp) (by simpa using hw)]
      rfl
    · rw [if_neg h, if_neg h, ih _ _ (by omega) hw]

theorem readIdx_ps (a s i : Nat) {w w' : W} (h : w'.ps = w.ps) : Ps.readIdx a s i w' = ((Ps.readIdx a s i w).1, w') := by
  unfold Ps.readIdx; simp only [ite_run, psRead8_run, pure_run, h]; split <;> rfl

theorem getGuid_ps (c : Ctx) (i : Nat) {w w' : W} (h : w'.ps = w.ps) :
    DevData.getGuid c i w' = ((DevData.getGuid c i w).1, w') := by
  unfold DevData.getGuid
  simp only [ite_run]
  split
  · exact readIdx_ps _ _ _ h
  · split <;> rfl

theorem getMdf_ps (c : Ctx) (i : Nat) {w w' : W} (h : w'.ps = w.ps) :
    DevData.getMdf c i w' = ((DevData.getMdf c i w).1, w') := by
  unfold DevData.getMdf
  simp only [ite_run]
  split
  · exact readIdx_ps _ _ _ h
  · rfl

end Vscp
