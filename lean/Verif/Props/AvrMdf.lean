/-
The registers of the AVR example are those of its module description: C91.
-/
import Verif.Props.AvrFw
import Verif.Props.DmRegs
import Verif.Props.Gate
import Verif.Props.Time
import Verif.Spec.AvrMdf

namespace Vscp.AvrProps
open M Vscp.Spec Vscp.Spec.Avr Vscp.Spec.Dm Vscp.Spec.Mdf Vscp.Registers Avr Vscp.DmRegs Vscp.DmProps

/-- A register of the example node is what the description says. -/
abbrev Register (sz : Nat) (e : Env) (page : U16) (addr : U8) (what : Meaning) : Prop :=
  Described (fun w : W => matrix (cfg sz) w.ps) (fun p a w => (Core.readRegister (ctx sz e) p a w).1)
    (fun p a v w => let r := Core.writeRegister (ctx sz e) p a v w; (r.1.1, r.2))
    (fun w => writeEnable (w.ps (Ps.addrFlags (cfg sz))) = true) page addr what

theorem single (sz : Nat) (e : Env) : Single (ctx sz e).toCfg := 
  ⟨⟨rfl, rfl, show 2 ≤ 255 by decide⟩, rfl, show 2 < 32 by decide, show 1 + 0 < 255 by decide⟩

theorem addr_dm (sz : Nat) : Ps.addrDm (cfg sz) = 10 := rfl
theorem addr_zone (sz : Nat) : Ps.addrZone (cfg sz) = 8 := rfl
theorem addr_sub (sz : Nat) : Ps.addrSubZone (cfg sz) = 9 := rfl

/-- The byte of a row. -/
theorem row_register (sz : Nat) (e : Env) (r k : Nat) (hr : r < 2) (hk : k < 8) (addr : U8) (ha : addr.toNat = r * 8 + k) :
    Register sz e 1 addr (.row r k) := by
  have hc : Dm.isDecisionMatrix (ctx sz e).toCfg 1 addr = true := by
    rw [single_claimed (single sz e)]
    exact ⟨rfl, Nat.zero_le _, by rw [ha]; show _ < 16; omega⟩
  have hv : ¬((1 : U16) = 0 ∧ 0x80 ≤ addr.toNat) := fun h => (by cases h.1)
  have hb : byteOf (ctx sz e).toCfg 1 addr = r * 8 + k := by
    unfold byteOf
    rw [if_pos (show (1 : U16).toNat = (ctx sz e).dmPage from rfl), ← ha]
    rfl
  have h8 : r * 8 + k < 8 * (ctx sz e).dmRows := by show _ < 16; omega
  have hw : ∀ (w : W) v, writeEnable (w.ps (Ps.addrFlags (cfg sz))) = true → (Core.writeRegister (ctx sz e) 1 addr v w).2.ps =
      fun a => if a = 10 + (r * 8 + k) then v else w.ps a := by
    intro w v he
    rw [write_ps (single sz e).toStd hv hc w he v, hb]
    funext a
    simp only [h8, true_and]
    rfl
  refine ⟨fun w => ?_, fun w v he => ?_, fun w v he => ?_, fun w v he x hx hx8 => ?_⟩
  · show (Core.readRegister (ctx sz e) 1 addr w).1 = w.ps (Ps.addrDm (cfg sz) + (r * 8 + k))
    rw [read_run (single sz e).toStd hv hc, hb]
    simp only
    rw [if_pos h8]
    rfl
  · show (Core.writeRegister (ctx sz e) 1 addr v w).1.1 = v
    obtain ⟨r', o, h1, h2⟩ := byte_eq (single sz e).toStd hc
    rw [writeRegister_outer hv (by unfold accepted; rw [if_neg hv]; exact he)]
    simp only
    rw [if_pos ⟨rfl, hc⟩]
    unfold Vscp.Dm.writeRegister
    rw [if_neg (show ¬((ctx sz e).dmPaged = true) from fun h => (by cases h))]
    unfold Vscp.Dm.writeRegisterStd
    rw [h1]
    simp only [bind_run]
    unfold Ps.readDm Ps.writeDm
    unfold Ps.readIdx Ps.writeIdx
    have hs : Ps.sizeDm (ctx sz e).toCfg > r * 8 + k := by show 16 > _; omega
    rw [h2, hb, if_pos hs, if_pos hs]
    show (if Ps.addrDm (ctx sz e).toCfg + (r * 8 + k) = Ps.addrDm (ctx sz e).toCfg + (r * 8 + k) then v else _) = v
    exact if_pos rfl
  · show (Core.writeRegister (ctx sz e) 1 addr v w).2.ps (10 + (r * 8 + k)) = v
    rw [hw w v he]
    simp
  · show value (matrix (cfg sz) (Core.writeRegister (ctx sz e) 1 addr v w).2.ps) x = _
    rw [hw w v he]
    cases x with
    | zone => exact if_neg (by rw [addr_zone]; omega)
    | subZone => exact if_neg (by rw [addr_sub]; omega)
    | row r' k' =>
      have := hx8 r' k' rfl
      refine if_neg ?_
      rw [addr_dm]
      intro h
      apply hx
      have : r' = r := by omega
      have : k' = k := by omega
      subst_vars
      rfl

/-- A register of the application. -/
theorem app_write (sz : Nat) (e : Env) (addr v : U8) (h : addr.toNat < 0x80) (w : W) (he : writeEnable (w.ps (Ps.addrFlags (cfg sz))) = true) :
    (Core.writeRegister (ctx sz e) 0 addr v w).1.1 = writeRegister 0 addr v ∧
    (Core.writeRegister (ctx sz e) 0 addr v w).2.ps = fun a => if addr = 0 ∧ a = 8 ∨ addr = 1 ∧ a = 9 then v else w.ps a := by
  have hac : accepted (ctx sz e) w 0 addr = true := by
    unfold accepted
    rw [if_neg (fun h => by have := h.2; omega)]
    exact he
  rw [writeRegister_app hac (served h)]
  refine ⟨rfl, ?_⟩
  have hst : Core.appStores (ctx sz e) w.out.length 0 addr v = if addr = 0 then [(8, v)] else if addr = 1 then [(9, v)] else [] := by
    show (match writeZone 0 addr v with | some z => [(8, z)] | none => []) ++ (match writeSubZone 0 addr v with | some z => [(9, z)] | none => []) = _
    unfold writeZone writeSubZone
    by_cases h0 : addr = 0
    · subst h0; rfl
    · by_cases h1 : addr = 1
      · subst h1; rfl
      · rw [if_neg h0, if_neg h1, if_neg (fun h => h0 h.2.2), if_neg (fun h => h1 h.2.2)]; rfl
  rw [hst]
  by_cases h0 : addr = 0
  · subst h0
    funext a
    show (if a = 8 then v else w.ps a) = _
    grind
  · by_cases h1 : addr = 1
    · subst h1
      funext a
      show (if a = 9 then v else w.ps a) = _
      grind
    · rw [if_neg h0, if_neg h1]
      funext a
      rw [if_neg (by rintro (h | h) <;> simp_all)]
      rfl

/-- The zone and the sub-zone. -/
theorem zone_register (sz : Nat) (e : Env) : Register sz e 0 0 .zone ∧ Register sz e 0 1 .subZone := by
  constructor
  · refine ⟨fun w => ?_, fun w v he => (app_write sz e 0 v (by decide) w he).1, fun w v he => ?_, fun w v he x hx hx8 => ?_⟩
    · show (Core.readRegister (ctx sz e) 0 0 w).1 = _
      rw [appServed_run (served (by decide))]
      rfl
    · show (Core.writeRegister (ctx sz e) 0 0 v w).2.ps 8 = v
      rw [(app_write sz e 0 v (by decide) w he).2]
      rfl
    · show value (matrix (cfg sz) (Core.writeRegister (ctx sz e) 0 0 v w).2.ps) x = _
      rw [(app_write sz e 0 v (by decide) w he).2]
      cases x with
      | zone => exact absurd rfl hx
      | subZone => rfl
      | row r k => exact if_neg (by rw [addr_dm]; omega)
  · refine ⟨fun w => ?_, fun w v he => (app_write sz e 1 v (by decide) w he).1, fun w v he => ?_, fun w v he x hx hx8 => ?_⟩
    · show (Core.readRegister (ctx sz e) 0 1 w).1 = _
      rw [appServed_run (served (by decide))]
      rfl
    · show (Core.writeRegister (ctx sz e) 0 1 v w).2.ps 9 = v
      rw [(app_write sz e 1 v (by decide) w he).2]
      rfl
    · show value (matrix (cfg sz) (Core.writeRegister (ctx sz e) 0 1 v w).2.ps) x = _
      rw [(app_write sz e 1 v (by decide) w he).2]
      cases x with
      | zone => rfl
      | subZone => exact absurd rfl hx
      | row r k => exact if_neg (by rw [addr_dm]; omega)

/-- C91, for six of the 18 registers of the description: a register of the node is what its description says.  Missing: the others, see
`C91_registers_violated`. -/
theorem C91_registers_partial (sz : Nat) (e : Env) (x : U16 × U8 × Meaning) (hx : x ∈ Mdf.registers)
    (h : (∀ r k, x.2.2 = .row r k → x.1 = 1)) : Register sz e x.1 x.2.1 x.2.2 := by
  have hz := zone_register sz e
  have hr := row_register sz e
  simp only [Mdf.registers, List.mem_cons, List.not_mem_nil, or_false] at hx
  rcases hx with rfl | rfl | rfl | rfl | rfl | rfl | rfl | rfl | rfl | rfl | rfl | rfl | rfl | rfl | rfl | rfl | rfl | rfl
  · exact hz.1
  · exact hz.2
  · exact hr 0 0 (by decide) (by decide) 0 rfl
  · exact hr 0 1 (by decide) (by decide) 1 rfl
  all_goals first
    | exact absurd (h _ _ rfl) (by decide)
    | exact hr 1 0 (by decide) (by decide) 8 rfl
    | exact hr 1 1 (by decide) (by decide) 9 rfl

/-- C91 is violated: twelve registers of the decision matrix are described with page 0.  Writing such a register is answered with 0 whatever is
written, and changes nothing in the memory; reading it returns 0. -/
theorem C91_registers_violated (sz : Nat) (e : Env) (x : U16 × U8 × Meaning) (hx : x ∈ Mdf.registers) (r k : Nat) (hm : x.2.2 = .row r k)
    (h0 : x.1 = 0) (w : W) (v : U8) (he : writeEnable (w.ps (Ps.addrFlags (cfg sz))) = true) :
    (Core.writeRegister (ctx sz e) x.1 x.2.1 v w).1.1 = 0 ∧ (Core.writeRegister (ctx sz e) x.1 x.2.1 v w).2.ps = w.ps ∧
    (Core.readRegister (ctx sz e) x.1 x.2.1 w).1 = 0 := by
  have key : ∀ addr : U8, addr.toNat < 0x80 → addr ≠ 0 → addr ≠ 1 → (Core.writeRegister (ctx sz e) 0 addr v w).1.1 = 0 ∧
      (Core.writeRegister (ctx sz e) 0 addr v w).2.ps = w.ps ∧ (Core.readRegister (ctx sz e) 0 addr w).1 = 0 := by
    intro addr h h0 h1
    obtain ⟨a, b⟩ := app_write sz e addr v h w he
    refine ⟨?_, ?_, ?_⟩
    · rw [a]
      unfold writeRegister
      rw [if_pos rfl, if_pos (by omega), if_neg h0, if_neg h1]
    · rw [b]
      funext a
      exact if_neg (by rintro (h | h) <;> simp_all)
    · rw [appServed_run (served h)]
      show readRegister sz w.ps 0 addr = 0
      unfold readRegister
      rw [if_pos rfl, if_pos (by omega), if_neg h0, if_neg h1]
  simp only [Mdf.registers, List.mem_cons, List.not_mem_nil, or_false] at hx
  rcases hx with rfl | rfl | rfl | rfl | rfl | rfl | rfl | rfl | rfl | rfl | rfl | rfl | rfl | rfl | rfl | rfl | rfl | rfl
  all_goals first
    | exact absurd hm (fun h => Meaning.noConfusion h)
    | exact absurd h0 (by decide)
    | exact key _ (by decide) (by decide) (by decide)

/-- These are twelve of the 18 registers. -/
example : (Mdf.registers.filter fun x => match x.2.2 with | .row _ _ => x.1 = 0 | _ => false).length = 12 ∧ Mdf.registers.length = 18 := by
  decide

/-- C91: with page 1 in their description all of them would be right: byte `k` of row `r` is register `8 * r + k` of the page and offset the matrix starts with
in the description. -/
theorem C91_matrix (sz : Nat) (e : Env) (r k : Nat) (hr : r < (matrix (cfg sz) default).rows) (hk : k < 8) :
    Register sz e matrixStart.1 (matrixStart.2 + BitVec.ofNat 8 (8 * r + k)) (.row r k) := by
  have h2 : r < 2 := hr
  refine row_register sz e r k h2 hk _ ?_
  show ((0 : U8) + BitVec.ofNat 8 (8 * r + k)).toNat = _
  rw [show (0 : U8) = 0#8 from rfl, BitVec.zero_add, BitVec.toNat_ofNat]
  omega

/-- C91 is violated: the description tells of ten rows.  The node has two, and no write of a register described as a byte of a third row or a later
one (that is register `8 * r + k`) changes anything in the memory. -/
theorem C91_rows_violated (sz : Nat) (e : Env) : matrixRows = 10 ∧ (∀ ps, (matrix (cfg sz) ps).rows = 2) ∧
    ∀ r k, 2 ≤ r → r < matrixRows → k < 8 → ∀ (w : W) (v : U8),
      writeEnable (w.ps (Ps.addrFlags (cfg sz))) = true →
      (Core.writeRegister (ctx sz e) matrixStart.1 (matrixStart.2 + BitVec.ofNat 8 (8 * r + k)) v w).2.ps = w.ps := by
  refine ⟨rfl, fun _ => rfl, fun r k h2 hr hk w v he => ?_⟩
  have hr : r < 10 := hr
  generalize ha : matrixStart.2 + BitVec.ofNat 8 (8 * r + k) = addr
  have ha : addr.toNat = 8 * r + k := by
    rw [← ha]
    show ((0 : U8) + BitVec.ofNat 8 (8 * r + k)).toNat = _
    rw [show (0 : U8) = 0#8 from rfl, BitVec.zero_add, BitVec.toNat_ofNat]
    omega
  have hs : appServed (ctx sz e) 1 addr = true := by
    rw [appServed_iff]
    refine ⟨fun h => (by cases h.1), fun h => ?_, fun h => (by cases h.1)⟩
    have := ((single_claimed (single sz e) 1 addr).mp h.2).2.2
    have : addr.toNat < 16 := this
    omega
  show (Core.writeRegister (ctx sz e) 1 addr v w).2.ps = w.ps
  rw [writeRegister_app (by unfold accepted; rw [if_neg (fun h => (by cases h.1))]; exact he) hs]
  rfl

/-- The hypotheses are met, by the node with fresh memory: the class mask of the first row cannot be written by the register described as such,
but by the register on page 1. -/
example : let c := ctx 0 Ex.ctx.toEnv
    let w := runOps c [.init fun _ => true] (powerUp fun _ => 0x60)
    writeEnable (w.ps (Ps.addrFlags (cfg 0))) = true ∧ w.ps 12 = 0x60 ∧ (0, 2, .row 0 2) ∈ Mdf.registers ∧
    (Core.writeRegister c 0 2 7 w).2.ps 12 = 0x60 ∧ (Core.writeRegister c 1 2 7 w).2.ps 12 = 7 := by
  decide +kernel

/-! ### What the description tells about the whole node -/

/-- C91: version, boot loader algorithm and buffer size which the node reports are those of the description. -/
theorem C91_version (sz : Nat) (e : Env) (w : W) :
    ([0x94, 0x95, 0x96] : List U8).map (fun a => (Core.readRegister (ctx sz e) 0 a w).1) = Mdf.version ∧
    (Core.readRegister (ctx sz e) 0 0x97 w).1 = Mdf.bootAlgorithm ∧ (Core.readRegister (ctx sz e) 0 0x98 w).1 = Mdf.bufferSize :=
  ⟨rfl, rfl, rfl⟩

/-- An event of the description, whatever its priority, or one of the protocol. -/
def Told (o : Out) : Prop := ∀ m r, o = .tx m r → m.cls = 0 ∨ ∃ d ∈ Mdf.events, m.cls = d.cls ∧ m.typ = d.typ ∧ (m.typ ≠ 9 → m.prio = d.prio)

theorem enabled_told {c : Cfg} {o : Out} (h : Enabled c o) : Told o := by
  rintro m r rfl
  rcases h with h | h
  · exact .inl h.1
  · exact .inr ⟨_, List.mem_cons_self .., h.1, h.2.1, fun h9 => absurd h.2.1 h9⟩

theorem info_told {typ nick : U8} {e : Msg} (ht : typ = 3 ∨ typ = 4) (h : Info typ nick e) (r : Bool) : Told (.tx e r) := by
  rintro m r' e'
  cases e'
  right
  rcases ht with rfl | rfl
  · exact ⟨⟨20, 3, 3⟩, by simp [Mdf.events], h.cls, h.typ, fun _ => h.prio⟩
  · exact ⟨⟨20, 4, 3⟩, by simp [Mdf.events], h.cls, h.typ, fun _ => h.prio⟩

theorem reacts_told {nick : U8} {l t : List Out} (h : Reacts nick l t) : ∀ o ∈ t, Told o := by
  have act : ∀ a p m, Told (.action a p m) := fun a p m m' r e => (by cases e)
  induction h with
  | nil => simp
  | on h _ ih =>
    intro o ho
    simp only [List.mem_cons] at ho
    rcases ho with rfl | rfl | ho
    · exact act _ _ _
    · exact info_told (.inl rfl) h _
    · exact ih o ho
  | off h _ ih =>
    intro o ho
    simp only [List.mem_cons] at ho
    rcases ho with rfl | rfl | ho
    · exact act _ _ _
    · exact info_told (.inr rfl) h _
    · exact ih o ho
  | other _ _ _ ih =>
    intro o ho
    simp only [List.mem_cons] at ho
    rcases ho with rfl | ho
    · exact act _ _ _
    · exact ih o ho

theorem calm_told {c : Ctx} {op : Op} (h : Called op ∨ ∃ ok, op = .init ok) (w : W) : ∃ t, (stepOp c op w).2.out = w.out ++ t ∧ ∀ o ∈ t, Told o := by
  obtain ⟨t, h1, h2⟩ := Gate.op_calls (c := c) op w
  refine ⟨t, h1, fun o ho => ?_⟩
  rcases h2 o ho with h' | h'
  · exact enabled_told h'
  · rintro m r rfl
    rcases h with (rfl | rfl | ⟨rx, rfl⟩) | ⟨ok, rfl⟩ <;> rcases h' with h' | h' <;> simp at h'

theorem call_told (s : Surr) {op : Op} (hop : Called op) (f : Fw) : ∃ t, (call s op f).w.out = f.w.out ++ t ∧ ∀ o ∈ t, Told o := by
  by_cases h : ∃ m, op = .process (some m) ∧ f.w.v.st = .active
  · obtain ⟨m, rfl, ha⟩ := h
    obtain ⟨tp, ub, t, h1, h2⟩ := cycle (sz := s.sz) (e := s.env f.life) (s.stack f.life) m f.w ha
    obtain ⟨t1, q1, p1⟩ := Gate.heartbeat (c := s.ctx f.life) { handled (s.ctx f.life) m f.w with tp := tp, ub := ub, out := (handled (s.ctx f.life) m f.w).out ++ t }
    obtain ⟨t2, q2, p2⟩ := Gate.extRead (c := s.ctx f.life) (Core.activeHeartbeat (s.ctx f.life)
      { handled (s.ctx f.life) m f.w with tp := tp, ub := ub, out := (handled (s.ctx f.life) m f.w).out ++ t }).2
    have h0 : ∃ t0, (handled (s.ctx f.life) m f.w).out = f.w.out ++ t0 ∧ ∀ o ∈ t0, Told o := by
      unfold handled
      split
      · obtain ⟨t0, q, p⟩ := Gate.handler (c := s.ctx f.life) m (preProcess (s.ctx f.life) (some m) f.w).2
        refine ⟨t0, ?_, fun o ho => enabled_told (p o ho)⟩
        rw [show (handle (s.ctx f.life) m (preProcess (s.ctx f.life) (some m) f.w).2).out = _ from q, pre_out]
      · refine ⟨[.event m], ?_, fun o ho => ?_⟩
        · show (preProcess (s.ctx f.life) (some m) f.w).2.out ++ _ = _
          rw [pre_out]
        · rw [List.mem_singleton.mp ho]
          intro m' r e
          cases e
    obtain ⟨t0, q0, p0⟩ := h0
    refine ⟨t0 ++ t ++ t1 ++ t2, ?_, fun o ho => ?_⟩
    · show (stepOpC (s.ctx f.life) (s.cb f.life) (.process (some m)) f.w).2.out = _
      rw [show (stepOpC (s.ctx f.life) (s.cb f.life) (.process (some m)) f.w).2 = _ from h1, q2, q1]
      show (handled (s.ctx f.life) m f.w).out ++ t ++ t1 ++ t2 = _
      rw [q0]
      simp only [List.append_assoc]
    · simp only [List.mem_append] at ho
      rcases ho with ((ho | ho) | ho) | ho
      · exact p0 o ho
      · exact reacts_told h2 o ho
      · exact enabled_told (p1 o ho)
      · exact enabled_told (p2 o ho)
  · have hw : (call s op f).w = (stepOp (s.ctx f.life) op f.w).2 := calm_op (s.stack f.life) op f.w (by
      rintro rx rfl
      cases rx with
      | none => exact .inr rfl
      | some m => exact .inl fun ha => h ⟨m, rfl, ha⟩)
    rw [hw]
    exact calm_told (.inl hop) f.w

/-- C91: in every history of the firmware, over any number of restarts, the node sends no events but those of the description and those of the protocol,
with the priority of the description except the heartbeat. -/
theorem C91_events_partial (s : Surr) (ps : Nat → U8) (l : List Move) (hl : ∀ m ∈ l, MoveOk m) (m : Msg) (r : Bool) (hm : .tx m r ∈ (fw s ps l).trace) :
    m.cls = 0 ∨ ∃ d ∈ Mdf.events, m.cls = d.cls ∧ m.typ = d.typ ∧ (m.typ ≠ 9 → m.prio = d.prio) := by
  suffices H : ∀ o ∈ (fw s ps l).trace, Told o from H _ hm m r rfl
  have hb : ∀ past n ps, (∀ o ∈ past, Told o) → ∀ o ∈ past ++ (boot s past n ps).w.out, Told o := by
    intro past n ps h o ho
    rcases List.mem_append.mp ho with ho | ho
    · exact h o ho
    · have hw : (boot s past n ps).w = (stepOp (s.ctx n) (.init fun _ => true) (powerUp ps)).2 := calm_op (s.stack n) _ _ (fun _ h => (by cases h))
      obtain ⟨t, h1, h2⟩ := calm_told (c := s.ctx n) (op := .init fun _ => true) (.inr ⟨_, rfl⟩) (powerUp ps)
      rw [hw, h1] at ho
      exact h2 o (by simpa [powerUp] using ho)
  refine run_keeps (s := s) (P := fun f => ∀ o ∈ f.past ++ f.w.out, Told o) ?_ (fun f h => hb _ _ _ h) (fun _ _ h => h) (fun _ _ h => h) l hl _ (hb [] 0 ps (by simp))
  intro op f _ hop h o ho
  obtain ⟨t, h1, h2⟩ := call_told s hop f
  have ho : o ∈ f.past ++ (call s op f).w.out := ho
  rw [h1, ← List.append_assoc] at ho
  rcases List.mem_append.mp ho with ho | ho
  · exact h o ho
  · exact h2 o ho

/-- C91 is violated: the description tells of a heartbeat with priority 7 every second.  The heartbeat of the node has priority 3, and two of them are at least
30 seconds apart, whatever is received or called between them. -/
theorem C91_heartbeat_violated (sz : Nat) (e : Env) : (∃ d ∈ Mdf.events, d.cls = 20 ∧ d.typ = 9 ∧ d.prio = 7) ∧ Mdf.heartbeatPeriod = 1000 ∧
    (∀ (w : W), w.v.st = .active → beats (ctx sz e) none w = 1 → ∃ m r, .tx m r ∈ madeBy (ctx sz e) none w ∧ m.cls = 20 ∧ m.typ = 9 ∧ m.prio = 3) ∧
    ∀ (w : W) (rx rx' : Option Msg) (ops : List Op), w.tm.ok .heartbeat = true → (∀ op ∈ ops, Time.noInit op) → beats (ctx sz e) rx w = 1 →
      beats (ctx sz e) rx' (runOps (ctx sz e) ops (stepOp (ctx sz e) (.process rx) w).2) = 1 → 30000 ≤ elapsed ops := by
  refine ⟨⟨⟨20, 9, 7⟩, by simp [Mdf.events], rfl, rfl, rfl⟩, rfl, fun w ha hb => ?_, fun w rx rx' ops hk hi h1 h2 => ?_⟩
  · obtain ⟨m, r, h1, h2, h3, h4, -⟩ := Time.C39_frame_partial (ctx sz e) none w ha (by rfl) hb rfl
    exact ⟨m, r, h1, h2, h3, h4⟩
  · exact Time.C39_spacing_partial hk hi h1 h2

/-- Such events are sent: an On event as the answer to an event, the first heartbeat after 30 seconds (and not after ten). -/
example : (fw exSurr exMem [due, rx (Ex.msg 30 5 9 [])]).trace.any (fun o => match o with | .tx m _ => m.cls = 20 ∧ m.typ = 3 | _ => false) = true ∧
    (fw exSurr exMem (List.replicate 40 due)).trace.any isHeartbeat = false ∧ (fw exSurr exMem (List.replicate 122 due)).trace.any isHeartbeat = true := by
  decide +kernel

end Vscp.AvrProps
