/-
Property theorems: opening and closing a serial port of the AVR example (C104).
-/
import Verif.Props.Serial
import Verif.Spec.SerialPort

namespace Vscp.Driver.Serial.Port
open Vscp.Spec.SerialPort Vscp.Spec.Serial

/-! ### Opening -/

/-- The value of UCSRnC, for valid arguments. -/
theorem format {data parity stop : Nat} (h : argsOk data parity stop) : ∃ d p t, dataBits data = some d ∧ parityBits parity = some p ∧ stopBits stop = some t ∧
    ∀ r : Regs, r.c = 0 ||| d ||| p ||| t → r.b = bit 1 4 ||| bit 1 3 ||| bit 1 7 →
      usedData r = some (if data < 4 then data + 5 else 8) ∧ usedParity r = [some Par.no, some .even, some .odd].getD parity none ∧ usedStop r = stop + 1 ∧
      async r = true ∧ rxOn r = true ∧ txOn r = true ∧ rxInt r = true ∧ txInt r = false ∧ emptyInt r = false := by
  obtain ⟨h1, h2, h3⟩ := h
  have a1 : data = 0 ∨ data = 1 ∨ data = 2 ∨ data = 3 ∨ data = 4 := by omega
  have a2 : parity = 0 ∨ parity = 1 ∨ parity = 2 := by omega
  have a3 : stop = 0 ∨ stop = 1 := by omega
  rcases a1 with rfl | rfl | rfl | rfl | rfl <;> rcases a2 with rfl | rfl | rfl <;> rcases a3 with rfl | rfl <;>
    refine ⟨_, _, _, rfl, rfl, rfl, fun r hc hb => ?_⟩ <;> unfold usedData usedParity usedStop async rxOn txOn rxInt txInt emptyInt <;> rw [hc, hb] <;> decide

/-- The bit U2X after a port is opened. -/
theorem u2x (a : U8) (x : Bool) : isSet (if x then a ||| 0x02 else a &&& ~~~0x02) 1 = x := by
  revert a x
  decide +kernel

theorem rates : ∀ n : Fin 12, ∀ r : Regs, r.ubrrh = (setbaud (bauds.getD n 0)).1 → r.ubrrl = (setbaud (bauds.getD n 0)).2.1 →
    isSet r.a 1 = (setbaud (bauds.getD n 0)).2.2 → rateWithin 36 r (named n) ∧ (n.val ≠ 9 → n.val ≠ 10 → rateWithin 10 r (named n)) := by
  intro n r h1 h2 h3
  have key : ∀ n : Fin 12, let c := (if (setbaud (bauds.getD n 0)).2.2 then 8 else 16) *
      ((setbaud (bauds.getD n 0)).1.toNat % 16 * 256 + (setbaud (bauds.getD n 0)).2.1.toNat + 1)
      (1000 * 16000000 ≤ named n * (1000 + 36) * c ∧ named n * (1000 - 36) * c ≤ 1000 * 16000000) ∧
      (n.val ≠ 9 → n.val ≠ 10 → 1000 * 16000000 ≤ named n * (1000 + 10) * c ∧ named n * (1000 - 10) * c ≤ 1000 * 16000000) := by decide +kernel
  have e : cyclesPerBit r = (if (setbaud (bauds.getD n 0)).2.2 then 8 else 16) *
      ((setbaud (bauds.getD n 0)).1.toNat % 16 * 256 + (setbaud (bauds.getD n 0)).2.1.toNat + 1) := by
    unfold cyclesPerBit
    rw [h1, h2, h3]
  unfold rateWithin
  rw [e]
  exact key n

/-- What opening does, for valid arguments. -/
theorem opened (s : State) (i : Fin 2) (baud data parity stop : Nat) (hr : ready s i) (hb : baud < 12) (ha : argsOk data parity stop) :
    ∃ s' c, openPort (some i) baud data parity stop s = some (.ok, s') ∧ s' = setHw s i (openRegs (s.hw i) (setbaud (bauds.getD baud 0)) c) ∧
      s'.hw i = openRegs (s.hw i) (setbaud (bauds.getD baud 0)) c ∧
      usedData (s'.hw i) = some (if data < 4 then data + 5 else 8) ∧ usedParity (s'.hw i) = [some Par.no, some .even, some .odd].getD parity none ∧
      usedStop (s'.hw i) = stop + 1 ∧ async (s'.hw i) = true ∧ rxOn (s'.hw i) = true ∧ txOn (s'.hw i) = true ∧ rxInt (s'.hw i) = true ∧
      txInt (s'.hw i) = false ∧ emptyInt (s'.hw i) = false := by
  obtain ⟨d, p, t, h1, h2, h3, hf⟩ := format ha
  have hbb : bauds[baud]? = some (bauds.getD baud 0) := by
    have : baud < bauds.length := hb
    rw [List.getElem?_eq_getElem this, List.getD_eq_getElem?_getD, List.getElem?_eq_getElem this]
    rfl
  have e : openPort (some i) baud data parity stop s = some (.ok, setHw s i (openRegs (s.hw i) (setbaud (bauds.getD baud 0)) (0 ||| d ||| p ||| t))) := by
    unfold openPort
    simp only
    rw [if_neg (fun h => h.elim hr.1 hr.2), hbb]
    simp only
    rw [h1]; simp only
    rw [h2]; simp only
    rw [h3]
  have ei : (setHw s i (openRegs (s.hw i) (setbaud (bauds.getD baud 0)) (0 ||| d ||| p ||| t))).hw i = openRegs (s.hw i) (setbaud (bauds.getD baud 0)) (0 ||| d ||| p ||| t) := by
    simp [setHw]
  refine ⟨_, _, e, rfl, ei, ?_⟩
  rw [ei]
  exact hf (openRegs (s.hw i) (setbaud (bauds.getD baud 0)) (0 ||| d ||| p ||| t)) rfl rfl

/-- C104: A port which has its buffers can be opened in every state with every valid combination of arguments.  Then it uses the parity, the number of stop bits and, up to
eight, the number of data bits asked for, asynchronously, at a rate which is off by 1 % at most (with the exception of 115200 and 230400 baud: 3.6 %); receiver, transmitter
and the interrupt for reception are on, the others off.  The buffers and the other port are as before.
Missing: nine data bits, see `C104_nine_violated`, and the tolerance of 2 %, see `C104_rate_violated`. -/
theorem C104_open_partial (s : State) (i : Fin 2) (baud data parity stop : Nat) (hr : ready s i) (hb : baud < 12) (ha : argsOk data parity stop) :
    ∃ s', openPort (some i) baud data parity stop s = some (.ok, s') ∧ s'.ctx = s.ctx ∧ (∀ j, j ≠ i → s'.hw j = s.hw j) ∧
      (data < 4 → usedData (s'.hw i) = some (data + 5)) ∧ usedParity (s'.hw i) = [some Par.no, some .even, some .odd].getD parity none ∧ usedStop (s'.hw i) = stop + 1 ∧
      async (s'.hw i) = true ∧ rxOn (s'.hw i) = true ∧ txOn (s'.hw i) = true ∧ rxInt (s'.hw i) = true ∧ txInt (s'.hw i) = false ∧ emptyInt (s'.hw i) = false ∧
      rateWithin 36 (s'.hw i) (named baud) ∧ (baud ≠ 9 → baud ≠ 10 → rateWithin 10 (s'.hw i) (named baud)) := by
  obtain ⟨s', c, e, es, ei, g1, g2, g3, g4, g5, g6, g7, g8, g9⟩ := opened s i baud data parity stop hr hb ha
  refine ⟨s', e, by rw [es]; rfl, fun j hj => by rw [es]; simp [setHw, hj], fun hd => by rw [g1, if_pos hd], g2, g3, g4, g5, g6, g7, g8, g9, ?_⟩
  rw [ei]
  exact rates ⟨baud, hb⟩ _ rfl rfl (u2x _ _)

/-- C104: Nine data bits are accepted, in every state, and eight are used. -/
theorem C104_nine_violated (s : State) (i : Fin 2) (baud parity stop : Nat) (hr : ready s i) (hb : baud < 12) (hp : parity < 3) (ht : stop < 2) :
    ∃ s', openPort (some i) baud 4 parity stop s = some (.ok, s') ∧ usedData (s'.hw i) = some 8 := by
  obtain ⟨s', c, e, _, _, g1, _⟩ := opened s i baud 4 parity stop hr hb ⟨by decide, hp, ht⟩
  exact ⟨s', e, g1⟩

/-- C104: 115200 baud (117647 in fact) and 230400 baud (222222) are accepted although they miss the tolerance of 2 %. -/
theorem C104_rate_violated (s : State) (i : Fin 2) (baud data parity stop : Nat) (hr : ready s i) (hb : baud = 9 ∨ baud = 10) (ha : argsOk data parity stop) :
    ∃ s', openPort (some i) baud data parity stop s = some (.ok, s') ∧ ¬ rateWithin 20 (s'.hw i) (named baud) := by
  obtain ⟨s', c, e, _, ei, _⟩ := opened s i baud data parity stop hr (by omega) ha
  refine ⟨s', e, ?_⟩
  have ec : cyclesPerBit (s'.hw i) = (if (setbaud (bauds.getD baud 0)).2.2 then 8 else 16) *
      ((setbaud (bauds.getD baud 0)).1.toNat % 16 * 256 + (setbaud (bauds.getD baud 0)).2.1.toNat + 1) := by
    rw [ei]
    have := u2x (s.hw i).a (setbaud (bauds.getD baud 0)).2.2
    unfold cyclesPerBit openRegs
    simp only
    rw [this]
  unfold rateWithin
  rw [ec]
  rcases hb with rfl | rfl <;> decide +kernel

/-- C104: A port is opened if, and only if, the handle is valid, the port has its buffers and the arguments are valid (the baud rate is not checked, it has to be valid); if not,
nothing is changed, and the result is an error. -/
theorem C104_refuses (s : State) (h : Handle) (baud data parity stop : Nat) (hb : baud < 12) :
    ∃ r s', openPort h baud data parity stop s = some (r, s') ∧ (r = .ok ↔ (∃ i, h = some i ∧ ready s i) ∧ argsOk data parity stop) ∧ (r ≠ .ok → s' = s) := by
  cases h with
  | none => exact ⟨.enull, s, rfl, ⟨fun h => (by cases h), fun ⟨⟨i, h, _⟩, _⟩ => (by cases h)⟩, fun _ => rfl⟩
  | some i =>
    by_cases hr : ready s i
    · by_cases ha : argsOk data parity stop
      · obtain ⟨s', c, e, _⟩ := opened s i baud data parity stop hr hb ha
        exact ⟨.ok, s', e, ⟨fun _ => ⟨⟨i, rfl, hr⟩, ha⟩, fun _ => rfl⟩, fun h => absurd rfl h⟩
      · refine ⟨.error, s, ?_, ⟨fun h => (by cases h), fun h => absurd h.2 ha⟩, fun _ => rfl⟩
        have hbb : bauds[baud]? = some (bauds.getD baud 0) := by
          have : baud < bauds.length := hb
          rw [List.getElem?_eq_getElem this, List.getD_eq_getElem?_getD, List.getElem?_eq_getElem this]
          rfl
        unfold openPort
        simp only
        rw [if_neg (fun h => h.elim hr.1 hr.2), hbb]
        simp only
        cases h1 : dataBits data with
        | none => rfl
        | some d =>
          cases h2 : parityBits parity with
          | none => rfl
          | some p =>
            cases h3 : stopBits stop with
            | none => rfl
            | some t =>
              refine absurd ⟨?_, ?_, ?_⟩ ha
              · unfold dataBits at h1
                (repeat' split at h1) <;> first | omega | cases h1
              · unfold parityBits at h2
                (repeat' split at h2) <;> first | omega | cases h2
              · unfold stopBits at h3
                (repeat' split at h3) <;> first | omega | cases h3
    · refine ⟨.error, s, ?_, ⟨fun h => (by cases h), fun ⟨⟨j, hj, hr'⟩, _⟩ => absurd (by cases hj; exact hr') hr⟩, fun _ => rfl⟩
      unfold openPort
      simp only
      rw [if_pos]
      unfold ready at hr
      by_cases h1 : (s.ctx i).rx.storage = []
      · exact .inl h1
      · by_cases h2 : (s.ctx i).tx.storage = []
        · exact .inr h2
        · exact absurd ⟨h1, h2⟩ hr

/-! ### The way to an open port -/

/-- C104: `serialDrv_get` delivers a handle for exactly the two ports, different ones. -/
theorem C104_get (n m : Nat) : (get n ≠ none ↔ n < 2) ∧ (get n ≠ none → get n = get m → n = m) := by
  unfold get
  by_cases h : n < 2 <;> by_cases h' : m < 2 <;> simp [h, h']

/-- C104: A port which gets its buffers after the initialisation and is opened then starts with empty buffers: these are the states in which the histories of
C72 - C75 start.  The other port is not touched and cannot be opened. -/
theorem C104_start (s : State) (i : Fin 2) (rx tx : List U8) (n m : U8) (hn : 2 ≤ n.toNat) (hm : 2 ≤ m.toNat) (hrx : rx.length = n.toNat) (htx : tx.length = m.toNat)
    (baud data parity stop : Nat) (hb : baud < 12) (ha : argsOk data parity stop) :
    ∃ s', openPort (some i) baud data parity stop (initUsart (some i) rx n tx m (init s)) = some (.ok, s') ∧
      (⟨(s'.ctx i).rx, (s'.ctx i).overflow, .idle⟩ : Rx.State) = Rx.start rx n ∧
      (⟨(s'.ctx i).tx, txInt (s'.hw i), false, false, .idle⟩ : Tx.State) = Tx.start tx m ∧
      ∀ j, j ≠ i → s'.hw j = s.hw j ∧ ∀ b d p t, openPort (some j) b d p t s' = some (.error, s') := by
  have hx : rx ≠ [] := fun h => by rw [h] at hrx; simp at hrx; omega
  have ht : tx ≠ [] := fun h => by rw [h] at htx; simp at htx; omega
  have e0 : initUsart (some i) rx n tx m (init s) = setCtx (init s) i ⟨⟨rx, n, 0, 0⟩, ⟨tx, m, 0, 0⟩, false⟩ := by
    unfold initUsart
    simp only
    rw [if_neg (by rintro (h | h | h | h); exact hx h; omega; exact ht h; omega)]
    rfl
  rw [e0]
  have ec : (setCtx (init s) i ⟨⟨rx, n, 0, 0⟩, ⟨tx, m, 0, 0⟩, false⟩).ctx i = ⟨⟨rx, n, 0, 0⟩, ⟨tx, m, 0, 0⟩, false⟩ := by simp [setCtx]
  obtain ⟨s', c, e, es, ei, _, _, _, _, _, _, _, g8, _⟩ := opened (setCtx (init s) i ⟨⟨rx, n, 0, 0⟩, ⟨tx, m, 0, 0⟩, false⟩) i baud data parity stop
    ⟨by rw [ec]; exact hx, by rw [ec]; exact ht⟩ hb ha
  have ec' : s'.ctx i = ⟨⟨rx, n, 0, 0⟩, ⟨tx, m, 0, 0⟩, false⟩ := by rw [es]; exact ec
  refine ⟨s', e, by rw [ec']; rfl, by rw [ec', g8]; rfl, fun j hj => ⟨by rw [es]; simp [setHw, setCtx, init, hj], fun b d p t => ?_⟩⟩
  have ej : (s'.ctx j).rx.storage = [] := by rw [es]; simp [setHw, setCtx, init, hj, noRing]
  unfold openPort
  simp only
  rw [if_pos (.inl ej)]

/-- The arguments of examples/avr/at90can/main.c:244-260. -/
example (s : State) : ∃ s', openPort (get 0) 6 3 0 0 (initUsart (get 0) (List.replicate 10 0) 10 (List.replicate 10 0) 10 (init s)) = some (.ok, s') ∧
    rateWithin 10 (s'.hw 0) 38400 ∧ usedData (s'.hw 0) = some 8 := by
  have := C104_open_partial (initUsart (get 0) (List.replicate 10 0) 10 (List.replicate 10 0) 10 (init s)) 0 6 3 0 0 (by constructor <;> (show List.replicate 10 (0 : U8) ≠ []; decide)) (by decide) ⟨by decide, by decide, by decide⟩
  obtain ⟨s', e, _, _, h1, _, _, _, _, _, _, _, _, _, h2⟩ := this
  exact ⟨s', e, h2 (by decide) (by decide), h1 (by decide)⟩

/-- C104: A port gets buffers for a second time, smaller ones: the next byte is stored outside of them.  `s` is a state after the reception of `k` bytes. -/
theorem C104_again_violated (s : State) (i : Fin 2) (rx tx : List U8) (n m : U8) (hn : 2 ≤ n.toNat) (hm : 2 ≤ m.toNat) (hrx : rx.length = n.toNat) (htx : tx.length = m.toNat)
    (hw : n.toNat ≤ (s.ctx i).rx.write.toNat) (hne : (s.ctx i).rx.read ≠ 0) (b : U8) :
    Rx.isr ⟨((initUsart (some i) rx n tx m s).ctx i).rx, false, .idle⟩ b = none := by
  have hx : rx ≠ [] := fun h => by rw [h] at hrx; simp at hrx; omega
  have ht : tx ≠ [] := fun h => by rw [h] at htx; simp at htx; omega
  have e0 : ((initUsart (some i) rx n tx m s).ctx i).rx = { (s.ctx i).rx with storage := rx, size := n } := by
    unfold initUsart
    simp only
    rw [if_neg (by rintro (h | h | h | h); exact hx h; omega; exact ht h; omega)]
    simp [setCtx]
  rw [e0]
  have hx : next n (s.ctx i).rx.write = 0 := by
    unfold next
    have := (s.ctx i).rx.write.isLt
    have := n.isLt
    by_cases h : (s.ctx i).rx.write.toNat = 255
    · have h' : (s.ctx i).rx.write = 255 := BitVec.eq_of_toNat_eq h
      rw [h', if_neg (by show ¬ n.toNat ≤ 0; omega)]
      rfl
    · rw [if_pos]
      rw [BitVec.toNat_add, Nat.mod_eq_of_lt (by show _ + 1 < 256; omega)]
      show n.toNat ≤ _ + 1
      omega
  unfold Rx.isr Ring.put
  simp only
  rw [hx, if_pos hne]
  unfold store
  simp only
  rw [if_neg (by omega)]

/-- Such a state is reached: ten bytes storage, six bytes received, one read; then a storage of two bytes. -/
example : ((Rx.run [.isr 1, .isr 2, .isr 3, .isr 4, .isr 5, .isr 6, .call .read, .step, .step, .step, .step] (Rx.start (List.replicate 10 0) 10)).map
    fun r => (r.1.ring.read, r.1.ring.write)) = some (1, 6) := by decide

/-! ### Closing -/

theorem mask (b : U8) : isSet (b &&& ~~~(bit 1 7 ||| bit 1 6)) 7 = false ∧ isSet (b &&& ~~~(bit 1 7 ||| bit 1 6)) 6 = false ∧
    isSet (b &&& ~~~(bit 1 7 ||| bit 1 6)) 5 = isSet b 5 := by
  revert b
  decide +kernel

theorem mask_on (b : U8) : isSet (b ||| bit 1 6) 5 = isSet b 5 := by
  revert b
  decide +kernel

theorem mask_off (b : U8) : isSet (b &&& ~~~bit 1 6) 5 = isSet b 5 ∧ isSet (b &&& ~~~bit 1 6) 6 = false ∧ isSet (b &&& ~~~bit 1 6) 7 = isSet b 7 := by
  revert b
  decide +kernel

/-- What a call does to the registers of a port. -/
theorem call_hw {s s' : State} {c : Call} (h : call s c = some s') (i : Fin 2) :
    s'.hw i = s.hw i ∨ (c = .close (some i) ∧ (s'.hw i).b = (s.hw i).b &&& ~~~(bit 1 7 ||| bit 1 6)) ∨ (c = .write i ∧ (s'.hw i).b = (s.hw i).b ||| bit 1 6) ∨
      (c = .txEnd i ∧ (s'.hw i).b = (s.hw i).b &&& ~~~bit 1 6) ∨ ((∃ b d p t, c = .openPort (some i) b d p t) ∧ (s'.hw i).b = bit 1 4 ||| bit 1 3 ||| bit 1 7) := by
  have hset : ∀ (j : Fin 2) (r : Regs), (setHw s j r).hw i = s.hw i ∨ (j = i ∧ (setHw s j r).hw i = r) := by
    intro j r
    by_cases hj : i = j
    · exact .inr ⟨hj.symm, by simp [setHw, hj]⟩
    · exact .inl (by simp [setHw, hj])
  cases c with
  | init => cases h; exact .inl rfl
  | initUsart hd r n t m =>
    cases h
    left
    unfold initUsart
    cases hd with
    | none => rfl
    | some j => simp only; split <;> rfl
  | openPort hd b d p t =>
    unfold call at h
    simp only [Option.map_eq_some_iff] at h
    obtain ⟨⟨r, s1⟩, h, rfl⟩ := h
    unfold openPort at h
    cases hd with
    | none => cases h; exact .inl rfl
    | some j =>
      simp only at h
      have key : ∀ r : Regs, r.b = bit 1 4 ||| bit 1 3 ||| bit 1 7 → s1 = setHw s j r → s1.hw i = s.hw i ∨
          ((∃ b' d' p' t', Call.openPort (some j) b d p t = .openPort (some i) b' d' p' t') ∧ (s1.hw i).b = bit 1 4 ||| bit 1 3 ||| bit 1 7) := by
        intro r hr e
        rw [e]
        rcases hset j r with h | ⟨rfl, h⟩
        · exact .inl h
        · exact .inr ⟨⟨_, _, _, _, rfl⟩, by rw [h, hr]⟩
      have fin : s1 = s ∨ ∃ r : Regs, r.b = bit 1 4 ||| bit 1 3 ||| bit 1 7 ∧ s1 = setHw s j r := by
        (repeat' split at h) <;> first
          | exact .inl (Prod.mk.inj (Option.some.inj h)).2.symm
          | exact .inr ⟨_, rfl, (Prod.mk.inj (Option.some.inj h)).2.symm⟩
          | cases h
      rcases fin with e | ⟨r, hr, e⟩
      · exact .inl (by rw [e])
      · rcases key r hr e with h | h
        · exact .inl h
        · exact .inr (.inr (.inr (.inr h)))
  | close hd =>
    cases h
    cases hd with
    | none => exact .inl rfl
    | some j =>
      rcases hset j { s.hw j with b := (s.hw j).b &&& ~~~(bit 1 7 ||| bit 1 6) } with h | ⟨rfl, h⟩
      · exact .inl h
      · exact .inr (.inl ⟨rfl, congrArg Regs.b h⟩)
  | write j =>
    cases h
    rcases hset j { s.hw j with b := (s.hw j).b ||| bit 1 6 } with h | ⟨rfl, h⟩
    · exact .inl h
    · exact .inr (.inr (.inl ⟨rfl, congrArg Regs.b h⟩))
  | txEnd j =>
    cases h
    rcases hset j { s.hw j with b := (s.hw j).b &&& ~~~bit 1 6 } with h | ⟨rfl, h⟩
    · exact .inl h
    · exact .inr (.inr (.inr (.inl ⟨rfl, congrArg Regs.b h⟩)))
  | transfer j u => cases h; exact .inl rfl


/-- The driver never enables the interrupt for an empty data register. -/
theorem no_empty : ∀ (l : List Call) (s s' : State), calls l s = some s' → ∀ i, emptyInt (s.hw i) = false → emptyInt (s'.hw i) = false := by
  intro l
  induction l with
  | nil => intro s s' h i hi; cases h; exact hi
  | cons c l ih =>
    intro s s' h i hi
    unfold calls at h
    cases hc : call s c with
    | none => rw [hc] at h; cases h
    | some s1 =>
      rw [hc] at h
      refine ih s1 s' h i ?_
      unfold emptyInt at hi ⊢
      rcases call_hw hc i with e | ⟨_, e⟩ | ⟨_, e⟩ | ⟨_, e⟩ | ⟨_, e⟩
      · rw [e]; exact hi
      · rw [e, (mask _).2.2]; exact hi
      · rw [e, mask_on]; exact hi
      · rw [e, (mask_off _).1]; exact hi
      · rw [e]; decide

theorem silent_calls : ∀ (l : List Call) (s s' : State), calls l s = some s' → ∀ i, (∀ c ∈ l, ¬ wakes i c) → silent (s.hw i) → silent (s'.hw i) := by
  intro l
  induction l with
  | nil => intro s s' h i _ hi; cases h; exact hi
  | cons c l ih =>
    intro s s' h i hw hi
    unfold calls at h
    cases hc : call s c with
    | none => rw [hc] at h; cases h
    | some s1 =>
      rw [hc] at h
      refine ih s1 s' h i (fun c hc => hw c (.tail _ hc)) ?_
      have hw := hw c (.head _)
      unfold silent rxInt txInt emptyInt at hi ⊢
      rcases call_hw hc i with e | ⟨_, e⟩ | ⟨rfl, e⟩ | ⟨_, e⟩ | ⟨⟨_, _, _, _, rfl⟩, _⟩
      · rw [e]; exact hi
      · rw [e]; exact ⟨(mask _).1, (mask _).2.1, by rw [(mask _).2.2]; exact hi.2.2⟩
      · exact absurd rfl hw
      · rw [e]; exact ⟨by rw [(mask_off _).2.2]; exact hi.1, (mask_off _).2.1, by rw [(mask_off _).1]; exact hi.2.2⟩
      · exact absurd rfl hw

theorem calls_append : ∀ (l l' : List Call) (s s' : State), calls (l ++ l') s = some s' → ∃ s1, calls l s = some s1 ∧ calls l' s1 = some s' := by
  intro l
  induction l with
  | nil => intro l' s s' h; exact ⟨s, rfl, h⟩
  | cons c l ih =>
    intro l' s s' h
    rw [List.cons_append] at h
    unfold calls at h
    cases hc : call s c with
    | none => rw [hc] at h; cases h
    | some s1 =>
      rw [hc] at h
      obtain ⟨s2, h1, h2⟩ := ih l' s1 s' h
      refine ⟨s2, ?_, h2⟩
      unfold calls
      rw [hc]
      exact h1

/-- C104: After any history a port which is closed has all its interrupts disabled, until it is opened again or a byte is handed over to it, whatever happens to the other
port.  Closing it changes nothing else of it, and nothing of the other one.
Missing: the port is closed for sending, see `C104_closed_violated`, and it is in its initial state when it is opened again, see `C104_reopen_violated`. -/
theorem C104_close_partial (i : Fin 2) (before after : List Call) (s : State) (hl : calls (before ++ .close (some i) :: after) reset = some s)
    (hw : ∀ c ∈ after, ¬ wakes i c) : silent (s.hw i) := by
  obtain ⟨s1, h1, h2⟩ := calls_append _ _ _ _ hl
  have h0 := no_empty before reset s1 h1 i (by show isSet 0 5 = false; decide)
  refine silent_calls after (close (some i) s1) s h2 i hw ?_
  have e : (close (some i) s1).hw i = { s1.hw i with b := (s1.hw i).b &&& ~~~(bit 1 7 ||| bit 1 6) } := by simp [close, setHw]
  rw [e]
  exact ⟨(mask _).1, (mask _).2.1, by unfold emptyInt; rw [(mask _).2.2]; exact h0⟩

/-- C104: `serialDrv_close` and the other port. -/
theorem C104_other (i j : Fin 2) (h : j ≠ i) (s : State) : (close (some i) s).hw j = s.hw j ∧ (close (some i) s).ctx = s.ctx := by
  constructor
  · simp [close, setHw, h]
  · rfl

example : ∃ s, calls ([.init, .initUsart (some 0) [0, 0] 2 [0, 0] 2, .openPort (some 0) 6 3 0 0, .write 0] ++ .close (some 0) :: [.openPort (some 1) 6 3 0 0]) reset = some s :=
  ⟨_, rfl⟩

/-- C104: A byte which is handed over to a closed port is sent. -/
theorem C104_closed_violated (storage : List U8) (n b : U8) :
    ∃ s t, Tx.portRun [.close, .tx (.call b), .tx .step, .tx .step, .tx .step] (Tx.start storage n) = some (s, t) ∧ line t = [b] :=
  ⟨_, _, rfl, rfl⟩

/-- C104: A port is closed while a byte waits, and opened again: the waiting byte is sent behind the next one. -/
theorem C104_reopen_violated : ∃ l s t, Tx.portRun l (Tx.start [0, 0, 0] 3) = some (s, t) ∧ line t = [1, 3, 2] ∧ taken t = [1, 2, 3] :=
  ⟨[.tx (.call 1), .tx .step, .tx .step, .tx .step, .tx (.call 2), .tx .step, .tx .step, .tx .step, .tx .step, .tx .step, .close, .tx .sent, .open,
    .tx (.call 3), .tx .step, .tx .step, .tx .step, .tx .sent, .tx .isr], _, _, rfl, by decide, by decide⟩

end Vscp.Driver.Serial.Port
