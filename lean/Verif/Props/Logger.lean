/-
Logger: C55 (fragmentation), C56 (gating), C57 (control events).
-/
import Verif.Spec.Logger
import Verif.Lemmas.Cycle
import Verif.Lemmas.OpSteps
import Verif.Lemmas.Restore
import Verif.Lemmas.Regs
import Verif.Props.Safety

namespace Vscp.LogProps
open M Vscp.Spec Vscp.Spec.Log Transport Vscp.Safety Restore

/-! ### C55 -/

theorem count_next {n k : Nat} (h : k < count n) : 0 < n - 5 * k - 5 ↔ k + 1 < count n := by
  unfold count at *
  split at h
  · rename_i e; rw [if_pos e]; omega
  · rename_i e; rw [if_neg e]; omega

/-- Sending an event of the log class. -/
theorem sendEvent_log (c : Ctx) (m : Msg) (hc : m.cls = CLASS_LOG) (hs : m.size = 8) (w : W) :
    Core.sendEvent c m w = (c.txOk w.out.length, sent c m w) := by
  unfold Core.sendEvent
  rw [writeMessage_run, if_neg (fun h => h.2 (by rw [hs]; decide))]
  have hb : beforeTx c m w = w := by
    unfold beforeTx
    rw [if_neg]
    exact fun h => h.2.2 hc
  rw [hb]
  rfl

theorem sent_out (c : Ctx) (m : Msg) (w : W) : (sent c m w).out = w.out ++ [.tx m (c.txOk w.out.length)] := by
  rw [sent, countErr_eq]

theorem sendLoop_out (c : Ctx) (id level nick : U8) (msg : List U8) (m : Msg) (hm : m = ⟨3, CLASS_LOG, 1, nick, c.hardCoded, 0, bytes8 []⟩) (r : Nat) :
    ∀ (k : Nat) (w : W), k < count msg.length → count msg.length = k + 1 + r →
      (Logger.sendLoop c m id level (BitVec.ofNat 8 k) (msg.drop (5 * k)) w).2.out =
        w.out ++ transmitAll c.txOk w.out.length ((List.range' k (r + 1)).map (logFrame nick c.hardCoded id level msg)) := by
  induction r with
  | zero =>
    intro k w hk hr
    unfold Logger.sendLoop
    rw [bind_run, sendEvent_log c _ (by rw [hm]) rfl]
    simp only
    rw [dif_neg]
    · rw [pure_run]
      simp only
      rw [sent_out, hm]
      simp only [List.range'_succ, List.range'_zero, List.map_cons, List.map_nil, transmitAll, ite_self]
      rfl
    · rintro ⟨h, -⟩
      rw [List.length_drop, List.length_drop] at h
      have := (count_next hk).mp h
      omega
  | succ r ih =>
    intro k w hk hr
    unfold Logger.sendLoop
    rw [bind_run, sendEvent_log c _ (by rw [hm]) rfl]
    simp only
    have hl : 0 < ((msg.drop (5 * k)).drop 5).length := by
      rw [List.length_drop, List.length_drop]
      exact (count_next hk).mpr (by omega)
    have he : BitVec.ofNat 8 k + 1 = BitVec.ofNat 8 (k + 1) := by
      apply BitVec.eq_of_toNat_eq
      rw [BitVec.toNat_add, BitVec.toNat_ofNat, BitVec.toNat_ofNat, show (1 : U8).toNat = 1 from rfl]; omega
    have hf : ({ m with size := 8, data := bytes8 ([id, level, BitVec.ofNat 8 k] ++ (msg.drop (5 * k)).take 5) } : Msg) =
        logFrame nick c.hardCoded id level msg k := by rw [hm]; rfl
    rw [List.range'_succ, List.map_cons, transmitAll]
    by_cases hok : c.txOk w.out.length = true
    · rw [dif_pos ⟨hl, hok⟩, he, List.drop_drop, show 5 * k + 5 = 5 * (k + 1) by omega, ih (k + 1) _ (by omega) (by omega),
        sent_out, hf, if_pos hok, List.length_append, List.append_assoc]
      rfl
    · rw [dif_neg (fun h => hok h.2), pure_run]
      simp only
      rw [sent_out, hf, if_neg hok]

theorem and_two_pow (x n : Nat) : x &&& 2 ^ n = (x.testBit n).toNat * 2 ^ n := by
  apply Nat.eq_of_testBit_eq
  intro i
  rw [Nat.testBit_and, Nat.testBit_two_pow]
  cases h : x.testBit n with
  | true =>
    rw [Bool.toNat_true, Nat.one_mul, Nat.testBit_two_pow]
    by_cases e : n = i
    · subst e; simp [h]
    · simp [e]
  | false =>
    rw [Bool.toNat_false, Nat.zero_mul, Nat.zero_testBit]
    by_cases e : n = i
    · subst e; simp [h]
    · simp [e]

theorem log_run (c : Ctx) (id level : U8) (msg : List U8) (w : W) (hl : level.toNat < 32) :
    (stepOp c (.log id level msg) w).2.out =
      if w.lg.on = true ∧ w.lg.level.toNat.testBit level.toNat = true then
        w.out ++ transmitAll c.txOk w.out.length (logFrames w.v.nick c.hardCoded id level msg)
      else w.out := by
  have hbit : ((w.lg.level.setWidth 32 : U32) &&& (1 <<< level.toNat) ≠ 0) ↔ w.lg.level.toNat.testBit level.toNat = true := by
    have h1 : ((w.lg.level.setWidth 32 : U32) &&& ((1 <<< level.toNat : Nat) : U32)).toNat =
        (w.lg.level.toNat.testBit level.toNat).toNat * 2 ^ level.toNat := by
      have hp : 2 ^ level.toNat < 2 ^ 32 := Nat.pow_lt_pow_right (by omega) hl
      have hx := w.lg.level.isLt
      have e2 : (((1 <<< level.toNat : Nat) : U32)).toNat = 2 ^ level.toNat := by
        show (BitVec.ofNat 32 (1 <<< level.toNat)).toNat = _
        rw [BitVec.toNat_ofNat, Nat.one_shiftLeft, Nat.mod_eq_of_lt hp]
      rw [BitVec.toNat_and, e2, BitVec.toNat_setWidth, Nat.mod_eq_of_lt (by omega), and_two_pow]
    have hp : 0 < 2 ^ level.toNat := Nat.pow_pos (by omega)
    constructor
    · intro h
      cases e : w.lg.level.toNat.testBit level.toNat with
      | true => rfl
      | false =>
        refine absurd (BitVec.eq_of_toNat_eq ?_) h
        rw [h1, e]; simp
    · intro h e
      rw [e, h] at h1
      simp at h1
      omega
  show (Logger.log c id level msg w).2.out = _
  unfold Logger.log
  rw [bind_run, get_run]
  simp only
  rw [whenM_run]
  by_cases h1 : w.lg.on = true
  · rw [if_pos h1, whenM_run]
    by_cases h2 : w.lg.level.toNat.testBit level.toNat = true
    · rw [if_pos (hbit.mpr h2), if_pos ⟨h1, h2⟩]
      rw [bind_run, pure_run]
      unfold Logger.sendLogEvent Core.prepareTxMessage
      rw [bind_run, bind_run, get_run]
      simp only [pure_run]
      have hpos : 0 < count msg.length := by unfold count; split <;> omega
      have := sendLoop_out c id level w.v.nick msg _ rfl (count msg.length - 1) 0 w hpos (by omega)
      rw [Nat.mul_zero, List.drop_zero] at this
      rw [show (0 : U8) = BitVec.ofNat 8 0 from rfl]
      rw [show count msg.length - 1 + 1 = count msg.length by omega] at this
      rw [logFrames, List.range_eq_range']
      exact this
    · rw [if_neg (fun h => h2 (hbit.mp h)), if_neg (fun h => h2 h.2)]
  · rw [if_neg h1, if_neg (fun h => h1 h.1)]

/-- C55: a log call which is not filtered out transmits the frames of the message one after the other, up to the first failure, and makes no other call. -/
theorem C55_frames (c : Ctx) (w : W) (id level : U8) (msg : List U8) (hl : level.toNat < 32) (hon : w.lg.on = true)
    (hlv : w.lg.level.toNat.testBit level.toNat = true) :
    (stepOp c (.log id level msg) w).2.out = w.out ++ transmitAll c.txOk w.out.length (logFrames w.v.nick c.hardCoded id level msg) := by
  rw [log_run c id level msg w hl, if_pos ⟨hon, hlv⟩]

/-- C55: the frames of a message of at most 255 bytes.  All have the class and type of a log message, eight data bytes, the log id, the level and their
number; byte `i` of the message is byte `i % 5` of the part of frame `i / 5`, which is zero behind the end of the message, and the last frame is needed. -/
theorem C55_lossless (nick : U8) (hard : Bool) (id level : U8) (msg : List U8) (hm : msg.length < 256) :
    let fs := logFrames nick hard id level msg
    (∀ (k : Nat) (f : Msg), fs[k]? = some f → f.prio = 3 ∧ f.cls = 509 ∧ f.typ = 1 ∧ f.oAddr = nick ∧ f.hard = hard ∧ f.size = 8 ∧ f.data[0] = id ∧
      f.data[1] = level ∧ f.data[2].toNat = k) ∧
    msg.length ≤ 5 * fs.length ∧ (fs.length = 1 ∨ 5 * fs.length < msg.length + 5) ∧
    ∀ i, i < 5 * fs.length → ∃ f : Msg, fs[i / 5]? = some f ∧ f.data.toList[3 + i % 5]? = some (msg.getD i 0) := by
  intro fs
  have hlen : fs.length = count msg.length := by simp [fs, logFrames]
  have hget : ∀ k, k < count msg.length → fs[k]? = some (logFrame nick hard id level msg k) := by
    intro k hk
    simp only [fs, logFrames]
    rw [List.getElem?_map, List.getElem?_range hk]
    rfl
  refine ⟨?_, ?_, ?_, ?_⟩
  · intro k f hf
    have hk : k < count msg.length := by
      rw [← hlen]
      exact (List.getElem?_eq_some_iff.mp hf).1
    rw [hget k hk] at hf
    have hk2 : k < 256 := by unfold count at hk; split at hk <;> omega
    simp only [Option.some.injEq] at hf
    subst hf
    refine ⟨rfl, rfl, rfl, rfl, rfl, rfl, rfl, rfl, ?_⟩
    show (BitVec.ofNat 8 k).toNat = k
    rw [BitVec.toNat_ofNat]; omega
  · rw [hlen]; unfold count; split <;> omega
  · rw [hlen]; unfold count; split <;> omega
  · intro i hi
    refine ⟨_, hget (i / 5) (by omega), ?_⟩
    have h5 : i % 5 < 5 := Nat.mod_lt _ (by omega)
    show (bytes8 _).toList[3 + i % 5]? = _
    have e : ∀ (l : List U8) (j : Nat), j < 8 → (bytes8 l).toList[j]? = some (l.getD j 0) := by
      intro l j hj
      unfold bytes8
      rw [Vector.toList_ofFn, List.getElem?_ofFn]
      simp [hj]
    rw [e _ _ (by omega)]
    congr 1
    rw [List.getD_eq_getElem?_getD, List.getD_eq_getElem?_getD,
      show [id, level, BitVec.ofNat 8 (i / 5)] ++ (msg.drop (5 * (i / 5))).take 5 = [id, level, BitVec.ofNat 8 (i / 5)] ++ (msg.drop (5 * (i / 5))).take 5 from rfl,
      List.getElem?_append_right (by simp), List.length_cons, List.length_cons, List.length_cons, List.length_nil,
      show 3 + i % 5 - (0 + 1 + 1 + 1) = i % 5 by omega, List.getElem?_take, if_pos h5, List.getElem?_drop,
      show 5 * (i / 5) + i % 5 = i by omega]

/-! ### C56 -/

/-- C56: a log call transmits something if and only if logging is enabled and the level is selected. -/
theorem C56_gate (c : Ctx) (w : W) (id level : U8) (msg : List U8) (hl : level.toNat < 32) :
    (stepOp c (.log id level msg) w).2.out ≠ w.out ↔ w.lg.on = true ∧ w.lg.level.toNat.testBit level.toNat = true := by
  rw [log_run c id level msg w hl]
  constructor
  · intro h
    by_cases e : w.lg.on = true ∧ w.lg.level.toNat.testBit level.toNat = true
    · exact e
    · rw [if_neg e] at h; exact absurd rfl h
  · intro h
    rw [if_pos h]
    have hpos : 0 < count msg.length := by unfold count; split <;> omega
    obtain ⟨n, hn⟩ : ∃ n, count msg.length = n + 1 := ⟨count msg.length - 1, by omega⟩
    intro e
    have := congrArg List.length e
    rw [logFrames, hn, List.range_succ_eq_map, List.map_cons, transmitAll, List.length_append] at this
    simp at this

theorem control_idem (logId : U8) (m : Msg) (l : LoggerVars) : control logId m (control logId m l) = control logId m l := by
  unfold Log.control
  grind

theorem control_other {logId : U8} {m : Msg} (l : LoggerVars) (h : m.cls ≠ 509) : control logId m l = l := by
  unfold Log.control
  rw [if_neg (fun e => h e.1)]

theorem handleEvent_run (c : Cfg) (m : Msg) (w : W) :
    Logger.handleEvent c m w = ((), { w with lg := control (w.ps (Ps.addrLogId c)) m w.lg }) := by
  have h1 : Ps.readLogId c w = (w.ps (Ps.addrLogId c), w) := rfl
  have h2 : ∀ b, Logger.enable b w = ((), { w with lg := { w.lg with on := b } }) := fun _ => rfl
  have h3 : ∀ l, Logger.setLogLevel l w = ((), { w with lg := { w.lg with level := l } }) := fun _ => rfl
  unfold Logger.handleEvent Log.control
  by_cases hc' : m.cls = CLASS_LOG
  · have hc : m.cls = 509 := hc'
    rw [if_pos hc']
    simp only [ite_run, whenM_run, bind_run, pure_run, h1, h2, h3]
    by_cases hs : m.size = 1
    · simp only [hc, hs, and_self, if_true]
      split
      · rename_i ht
        simp only [ht, true_and]
        split
        · rename_i hi; rw [if_pos hi.symm]
        · rename_i hi; rw [if_neg (Ne.symm hi)]; simp
      · split
        · rename_i ht
          simp only [ht, true_and]
          split
          · rename_i hi; rw [if_pos hi.symm]; simp
          · rename_i hi; rw [if_neg (Ne.symm hi)]; simp
        · rename_i n2 n3
          simp only [n2, n3, false_and, if_false]
          split <;> rfl
    · simp only [hs, and_false, if_false, ite_self]
  · have hc : m.cls ≠ 509 := hc'
    rw [if_neg hc', if_neg (fun e => hc e.1)]
    rfl

/-- In front of the state machine. -/
theorem pre_log (c : Ctx) (rx : Option Msg) (w : W) :
    (preProcess c rx w).2.v.rx = (readMessage c rx w).1.getD w.v.rx ∧
    (preProcess c rx w).2.lg = if c.logger then control (w.ps (Ps.addrLogId c)) ((readMessage c rx w).1.getD w.v.rx) w.lg else w.lg := by
  obtain ⟨tp, ub, hr⟩ := readMessage_frame' c rx w
  have het : ∀ w : W, (Core.epochTick w).2.v.rx = w.v.rx ∧ (Core.epochTick w).2.lg = w.lg := by
    intro w
    have hs := Foot.epochTick (c := c) (bad := True) w
    exact ⟨hs.same .rx (by decide), hs.same .lg (by decide)⟩
  unfold preProcess
  simp only [bind_run, setV_run, get_run, pure_run]
  rw [(het _).1, (het _).2, hr]
  by_cases hl : c.logger = true
  · rw [whenM_run, if_pos hl, if_pos hl, handleEvent_run]
    exact ⟨rfl, rfl⟩
  · rw [whenM_run, if_neg hl, if_neg hl]
    exact ⟨rfl, rfl⟩

/-- The steps of the state machine do not touch the settings of the logger nor the received event. -/
theorem process_log (c : Ctx) (rx : Option Msg) (w : W) :
    (Core.process c rx w).2.v.rx = (preProcess c rx w).2.v.rx ∧ (Core.process c rx w).2.lg = (preProcess c rx w).2.lg := by
  by_cases ha : w.v.st = .active
  · obtain ⟨w2, hh, hs⟩ := process_active (c := c) (rx := rx) ha
    have h2 : w2.v.rx = (preProcess c rx w).2.v.rx ∧ w2.lg = (preProcess c rx w).2.lg := by
      cases hh with
      | handler m hr hm hn h =>
        have hs : Steps c True protoActs (notified c m (preProcess c rx w).2) w2 := by
          rw [h]
          exact Foot.handleProtocolClassType (fun _ => trivial) _
        exact ⟨(hs.same .rx (by decide)).trans (notified_same c m _ .rx), (hs.same .lg (by decide)).trans (notified_same c m _ .lg)⟩
      | other _ hs => exact ⟨hs.same .rx (by decide), hs.same .lg (by decide)⟩
    exact ⟨(hs.same .rx (by decide)).trans h2.1, (hs.same .lg (by decide)).trans h2.2⟩
  · have hs := inactive_cycle (c := c) (rx := rx) ha
    exact ⟨hs.same .rx (by decide), hs.same .lg (by decide)⟩

/-- C56: a received event changes the settings of the logger like a log control event does, which has to carry the log id of the node to start or
stop; every other event changes nothing. -/
theorem C56_control (c : Ctx) (rx : Option Msg) (m : Msg) (w : W) (hr : (readMessage c rx w).1 = some m) :
    (stepOp c (.process rx) w).2.lg = if c.logger then control (w.ps (Ps.addrLogId c)) m w.lg else w.lg := by
  show (Core.process c rx w).2.lg = _
  rw [(process_log c rx w).2, (pre_log c rx w).2, hr]
  rfl

/-- C56: reading the level changes nothing, and delivers the level the other theorems are about. -/
theorem C56_level (w : W) : Logger.getLogLevel w = (w.lg.level, w) := rfl

/-- C56: apart from received events, only the two functions of the interface change the settings of the logger. -/
theorem C56_calls (c : Ctx) (op : Op) (w : W) (hp : ∀ rx, op ≠ .process rx) :
    (stepOp c op w).2.lg = match op with
      | .loggerEnable b => { w.lg with on := b }
      | .loggerLevel l => { w.lg with level := l }
      | _ => w.lg := by
  cases op with
  | process rx => exact absurd rfl (hp rx)
  | loggerEnable b => rfl
  | loggerLevel l => rfl
  | init ok => exact op_same c (.init ok) hp w .lg (by simp [opActs, Act.touches])
  | tick ms => exact op_same c (.tick ms) hp w .lg (by simp [opActs, Act.touches])
  | startNodeSegmentInit => exact op_same c .startNodeSegmentInit hp w .lg (by simp [opActs, Act.touches])
  | restore => exact op_same c .restore hp w .lg (by simp [opActs, Act.touches])
  | setAlarm v => exact op_same c (.setAlarm v) hp w .lg (by simp [opActs, Act.touches])
  | setTime t => exact op_same c (.setTime t) hp w .lg (by simp [opActs, Act.touches])
  | enableHeartbeat b => exact op_same c (.enableHeartbeat b) hp w .lg (by simp [opActs, Act.touches])
  | sendEvent m => exact op_same c (.sendEvent m) hp w .lg (by simp [opActs, Act.touches])
  | getTransmitErrors => exact op_same c .getTransmitErrors hp w .lg (by simp [opActs, Act.touches])
  | log id level msg => exact op_same c (.log id level msg) hp w .lg (by simp [opActs, Act.touches])
  | logUInt32 id level x => exact op_same c (.logUInt32 id level x) hp w .lg (by simp [opActs, Act.touches])

/-! ### C57 -/

theorem restore_logId (c : Cfg) (hl : c.logger = true) (ps : Nat → U8) :
    applyWrites ps (Restore.all c) (Ps.addrLogId c) = ps (Ps.addrLogId c) := by
  have hm := layout_mono c
  have hw := layout_low c
  have hdm : Ps.addrDm c = Ps.addrLogId c + 1 := by
    unfold Ps.addrDm Ps.sizeLogId; rw [if_pos hl]
  have ix : ∀ {a s i v x}, x ∈ idxW a s i v → a + s ≤ Ps.addrLogId c → x.1 ≠ Ps.addrLogId c := by
    intro a s i v x h h'
    have := mem_idxW h
    omega
  have s1 : Ps.addrUserId c + Ps.sizeUserId c ≤ Ps.addrLogId c := by
    have : Ps.sizeUserId c = 5 := rfl
    omega
  have s2 : Ps.addrGuid c + Ps.sizeGuid c ≤ Ps.addrLogId c := by
    have : Ps.addrZone c = Ps.addrGuid c + Ps.sizeGuid c := rfl
    omega
  have s3 : Ps.addrManu c + Ps.sizeManu c ≤ Ps.addrLogId c := by
    have : Ps.addrManuSub c = Ps.addrManu c + Ps.sizeManu c := rfl
    omega
  have s4 : Ps.addrManuSub c + Ps.sizeManuSub c ≤ Ps.addrLogId c := by
    have : Ps.addrMdf c = Ps.addrManuSub c + Ps.sizeManuSub c := rfl
    omega
  have s5 : Ps.addrMdf c + Ps.sizeMdf c ≤ Ps.addrLogId c := by
    have : Ps.addrFam c = Ps.addrMdf c + Ps.sizeMdf c := rfl
    omega
  have s6 : Ps.addrFam c + Ps.sizeFam c ≤ Ps.addrLogId c := by
    have : Ps.addrType c = Ps.addrFam c + Ps.sizeFam c := rfl
    omega
  have s7 : Ps.addrType c + Ps.sizeType c ≤ Ps.addrLogId c := by
    have : Ps.addrLogId c = Ps.addrType c + Ps.sizeType c := rfl
    omega
  have mem_if : ∀ {p : Prop} [Decidable p] {l : List (Nat × U8)} {x}, (x ∈ if p then l else []) → p ∧ x ∈ l := by
    intro p _ l x h
    split at h
    · exact ⟨‹p›, h⟩
    · simp at h
  have flat : ∀ {n : Nat} {p : Prop} [Decidable p] {a s : Nat} {g : Nat → Nat} {f : Nat → U8} {x : Nat × U8},
      (x ∈ if p then (List.range n).flatMap (fun i => idxW a s (g i) (f i)) else []) → a + s ≤ Ps.addrLogId c → x.1 ≠ Ps.addrLogId c := by
    intro n p _ a s g f x h h'
    obtain ⟨i, -, hi⟩ := List.mem_flatMap.mp (mem_if h).2
    exact ix hi h'
  apply applyWrites_other
  intro x hx
  rw [Restore.all, rest_eq] at hx
  rcases List.mem_cons.mp hx with rfl | hx
  · show Ps.addrNickname c ≠ _; omega
  rcases List.mem_append.mp hx with hx | hx
  · have := (mem_if hx).2
    rw [List.mem_singleton.mp this]
    show Ps.addrSegCrc c ≠ _; omega
  rcases List.mem_cons.mp hx with rfl | hx
  · show Ps.addrFlags c ≠ _; omega
  rcases List.mem_append.mp hx with hx | hx
  · obtain ⟨i, -, hi⟩ := List.mem_flatMap.mp hx
    exact ix hi s1
  rcases List.mem_append.mp hx with hx | hx
  · exact flat hx s2
  rcases List.mem_append.mp hx with hx | hx
  · obtain ⟨hz, hx⟩ := mem_if hx
    have : Ps.addrSubZone c = Ps.addrZone c + 1 := by unfold Ps.addrSubZone Ps.sizeZone; rw [if_pos hz]
    rw [List.mem_singleton.mp hx]
    show Ps.addrZone c ≠ _; omega
  rcases List.mem_append.mp hx with hx | hx
  · obtain ⟨hz, hx⟩ := mem_if hx
    have : Ps.addrManu c = Ps.addrSubZone c + 1 := by unfold Ps.addrManu Ps.sizeSubZone; rw [if_pos hz]
    rw [List.mem_singleton.mp hx]
    show Ps.addrSubZone c ≠ _; omega
  rcases List.mem_append.mp hx with hx | hx
  · exact flat hx s3
  rcases List.mem_append.mp hx with hx | hx
  · exact flat hx s4
  rcases List.mem_append.mp hx with hx | hx
  · exact flat hx s5
  rcases List.mem_append.mp hx with hx | hx
  · exact flat hx s6
  rcases List.mem_append.mp hx with hx | hx
  · exact flat hx s7
  · have := from_mats c x hx
    omega

/-- Nothing changes the stored log id. -/
theorem Step.logId {c : Ctx} {bad : Prop} {a : Act} {w w' : W} (hs : Step c bad a w w') (hl : c.logger = true) :
    w'.ps (Ps.addrLogId c) = w.ps (Ps.addrLogId c) := by
  have key : ∀ a b, a ≠ Ps.addrLogId c → (putPs a b w).ps (Ps.addrLogId c) = w.ps (Ps.addrLogId c) := by
    intro a b h
    unfold putPs
    simp only
    rw [if_neg (fun e => h e.symm)]
  have hsz : Ps.sizeLogId c = 1 := by unfold Ps.sizeLogId; rw [if_pos hl]
  have hlo : Ps.addrUserId c + 5 ≤ Ps.addrLogId c := by
    unfold Ps.addrLogId Ps.addrType Ps.addrFam Ps.addrMdf Ps.addrManuSub Ps.addrManu Ps.addrSubZone Ps.addrZone Ps.addrGuid Ps.sizeUserId
    omega
  have hu : Ps.addrUserId c = Ps.addrNickname c + 3 := by
    unfold Ps.addrUserId Ps.addrFlags Ps.addrSegCrc Ps.sizeFlags Ps.sizeSegCrc Ps.sizeNickname; rfl
  have hg : Ps.addrDm c = Ps.addrLogId c + 1 := by unfold Ps.addrDm; rw [hsz]
  have hn : Ps.addrDm c ≤ Ps.addrDmNg c := by unfold Ps.addrDmNg Ps.addrDmExt; omega
  cases a with
  | nick => obtain ⟨n, rfl⟩ := hs; exact key _ _ (by omega)
  | seg => obtain ⟨n, rfl⟩ := hs; exact key _ _ (by unfold Ps.addrSegCrc Ps.sizeNickname; omega)
  | flags => obtain ⟨n, rfl⟩ := hs; exact key _ _ (by unfold Ps.addrFlags Ps.addrSegCrc Ps.sizeNickname Ps.sizeSegCrc; omega)
  | user => obtain ⟨i, n, hi, rfl⟩ := hs; exact key _ _ (by omega)
  | boot => obtain ⟨-, n, rfl⟩ := hs; exact key _ _ (by unfold Ps.addrBootFlag; omega)
  | restore =>
    have e : w' = _ := hs
    rw [e, restore_run]
    exact restore_logId c.toCfg hl w.ps
  | dmW => obtain ⟨-, i, n, hi, rfl⟩ := hs; exact key _ _ (by omega)
  | ngW => obtain ⟨-, i, n, hi, rfl⟩ := hs; exact key _ _ (by omega)
  | appWrite =>
    obtain ⟨-, p, a, v, rfl⟩ := hs
    have e3 : Ps.addrSubZone c = Ps.addrZone c + Ps.sizeZone c := rfl
    have e4 : Ps.addrManu c = Ps.addrSubZone c + Ps.sizeSubZone c := rfl
    have e5 : Ps.addrManu c ≤ Ps.addrLogId c := by
      unfold Ps.addrLogId Ps.addrType Ps.addrFam Ps.addrMdf Ps.addrManuSub; omega
    rw [appWriteRegister_run]
    refine applyWrites_other fun x hx => ?_
    rcases appStores_mem c _ p a v x hx with ⟨hz, hx⟩ | ⟨hz, hx⟩
    · rw [Ps.sizeZone, if_pos hz] at e3; omega
    · rw [Ps.sizeSubZone, if_pos hz] at e4; omega
  | _ =>
    have := Step.same hs .ps (by rfl)
    simp only [Comp.same] at this
    rw [this]

theorem Steps.logId {c : Ctx} {bad : Prop} {A : List Act} {w w' : W} (hs : Steps c bad A w w') (hl : c.logger = true) :
    w'.ps (Ps.addrLogId c) = w.ps (Ps.addrLogId c) :=
  hs.rel (R := fun w w' => w'.ps (Ps.addrLogId c) = w.ps (Ps.addrLogId c)) (fun _ => rfl) (fun _ _ _ h h' => h'.trans h)
    (fun _ _ _ _ hs => Step.logId hs hl)

/-- `init` forgets the event which was received last. -/
theorem init_rx (c : Ctx) (ok : Tmr → Bool) (w : W) : (stepOp c (.init ok) w).2.v.rx.cls = 0 := by
  show (Core.init c ok w).2.v.rx.cls = 0
  unfold Core.init
  rw [bind_run, bind_run, bind_run, bind_run, bind_run]
  generalize (whenM (c.dm = true) (Dm.init c) _).2 = w1
  generalize hw : (setV _ _).2 = w2
  have h2 : w2.v.rx.cls = 0 := by rw [← hw]; rfl
  clear hw
  rw [bind_run]
  have hs : Foot c True [.tm .epoch, .restore, .st .error, .errorEntered] (do
      timerStart .epoch 1000
      let valid ← Core.checkPersistentMemory c.toCfg
      whenM (valid = false) (Core.restoreFactoryDefaultSettings c)
      let good := ok .main && ok .guidDrop && ok .reg162 && ok .epoch && (!c.hbNode || ok .heartbeat)
      whenM (good = false) (Core.changeToStateError c.toCfg)
      pure good) := by
    refine Foot.bind (.timerStart _ (by decide)) (fun _ => .bind ?_ fun _ =>
      .bind (.whenM fun _ => .restore (by decide)) fun _ => .bind (.whenM fun _ => .changeToStateError (by decide)) fun _ =>
      .pure _)
    unfold Core.checkPersistentMemory
    exact .bind .getStartUpControl fun _ => .pure _
  have h3 := Steps.same (hs (emit (.lamp .blinkSlow) w2).2) .rx (by decide)
  exact (congrArg Msg.cls h3).trans h2

/-- The last received event has been applied to the settings of the logger. -/
def Applied (c : Ctx) (w : W) : Prop := c.logger = true → control (w.ps (Ps.addrLogId c)) w.v.rx w.lg = w.lg

theorem applied_process (c : Ctx) (rx : Option Msg) (w : W) : Applied c (stepOp c (.process rx) w).2 := by
  intro hl
  show control ((Core.process c rx w).2.ps (Ps.addrLogId c)) (Core.process c rx w).2.v.rx (Core.process c rx w).2.lg = (Core.process c rx w).2.lg
  obtain ⟨h1, h2⟩ := process_log c rx w
  obtain ⟨h3, h4⟩ := pre_log c rx w
  rw [if_pos hl] at h4
  have hps : (preProcess c rx w).2.ps = w.ps := pre_same c rx w .ps (by decide)
  rw [h1, h2, h3, h4]
  by_cases hz : ((readMessage c rx w).1.getD w.v.rx).cls = 509
  · have hid : (Core.process c rx w).2.ps (Ps.addrLogId c) = w.ps (Ps.addrLogId c) := by
      rw [← hps]
      by_cases ha : w.v.st = .active
      · obtain ⟨w2, hh, hs⟩ := process_active (c := c) (rx := rx) ha
        rw [Steps.logId hs hl]
        cases hh with
        | handler m hr hm hn h => rw [hr] at hz; rw [show (some m).getD w.v.rx = m from rfl, hm] at hz; simp at hz
        | other _ hs => exact Steps.logId hs hl
      · exact Steps.logId (inactive_cycle (c := c) (rx := rx) ha) hl
    rw [hid, control_idem]
  · rw [control_other _ hz]

theorem applied_op (c : Ctx) (op : Op) (w : W) (h : Applied c w) (h1 : ∀ b, op ≠ .loggerEnable b) (h2 : ∀ l, op ≠ .loggerLevel l) :
    Applied c (stepOp c op w).2 := by
  by_cases h4 : ∀ ok, op ≠ .init ok
  rotate_left
  · cases op with
    | init ok => intro _; exact control_other _ (by rw [init_rx]; decide)
    | _ => exact absurd (fun _ h => by cases h) h4
  by_cases hp : ∀ rx, op ≠ .process rx
  · intro hl
    have hs := op_steps c op hp w
    have e1 : (stepOp c op w).2.lg = w.lg := by
      rw [C56_calls c op w hp]
      cases op with
      | loggerEnable b => exact absurd rfl (h1 b)
      | loggerLevel l => exact absurd rfl (h2 l)
      | _ => rfl
    have e2 : (stepOp c op w).2.v.rx = w.v.rx := by
      refine op_same c op hp w .rx ?_
      cases op <;> first | exact absurd rfl (h4 _) | simp [opActs, Act.touches]
    have e3 := Steps.logId hs hl
    rw [e1, e2, e3]
    exact h hl
  · cases op with
    | process rx => exact applied_process c rx w
    | _ => exact absurd (fun _ h => by cases h) hp

/-- C57, partial: after any cycle (with or without a received event), the event which was received last does not change the settings of the logger again in a later cycle
without a received event, as long as the application does not change these settings.  Missing: these calls, see `C57_violated`. -/
theorem C57_once_partial (c : Ctx) (rx rx' : Option Msg) (ops : List Op) (w : W)
    (h : ∀ op ∈ ops, (∀ b, op ≠ .loggerEnable b) ∧ (∀ l, op ≠ .loggerLevel l)) :
    let w1 := runOps c ops (stepOp c (.process rx) w).2
    (readMessage c rx' w1).1 = none → (stepOp c (.process rx') w1).2.lg = w1.lg := by
  intro w1 hr
  have happ : ∀ (ops : List Op) (w : W),
      (∀ op ∈ ops, (∀ b, op ≠ .loggerEnable b) ∧ (∀ l, op ≠ .loggerLevel l)) →
      Applied c w → Applied c (runOps c ops w) := by
    intro ops
    induction ops with
    | nil => intro w _ h; exact h
    | cons op ops ih =>
      intro w h hw
      obtain ⟨a, b⟩ := h op (by simp)
      exact ih _ (fun op h' => h op (by simp [h'])) (applied_op c op w hw a b)
  have ha : Applied c w1 := happ ops _ h (applied_process c rx w)
  show (Core.process c rx' w1).2.lg = _
  rw [(process_log c rx' w1).2, (pre_log c rx' w1).2, hr]
  split
  · rename_i hl
    exact ha hl
  · rfl

/-- C57: if no event has been received which controls the logger, a cycle without a received event changes nothing. -/
theorem C57_other (c : Ctx) (rx rx' : Option Msg) (m : Msg) (w : W) (hr : (readMessage c rx w).1 = some m) (hm : m.cls ≠ 509)
    (ops : List Op) (h : ∀ op ∈ ops, ∀ rx, op ≠ .process rx) :
    let w1 := runOps c ops (stepOp c (.process rx) w).2
    (readMessage c rx' w1).1 = none → (stepOp c (.process rx') w1).2.lg = w1.lg := by
  intro w1 hr'
  have hrx : ∀ (ops : List Op) (w : W), (∀ op ∈ ops, ∀ rx, op ≠ .process rx) → w.v.rx.cls ≠ 509 → (runOps c ops w).v.rx.cls ≠ 509 := by
    intro ops
    induction ops with
    | nil => intro w _ h; exact h
    | cons op ops ih =>
      intro w h hw
      refine ih _ (fun op h' => h op (by simp [h'])) ?_
      have hp := h op (by simp)
      by_cases hi : ∀ ok, op ≠ .init ok
      · have e2 : (stepOp c op w).2.v.rx = w.v.rx := by
          refine op_same c op hp w .rx ?_
          cases op <;> first | exact absurd rfl (hi _) | exact absurd rfl (hp _) | simp [opActs, Act.touches]
        rw [e2]; exact hw
      · cases op with
        | init ok => rw [init_rx]; decide
        | _ => exact absurd (fun _ h => by cases h) hi
  have h0 : w1.v.rx.cls ≠ 509 := by
    refine hrx ops _ h ?_
    show (Core.process c rx w).2.v.rx.cls ≠ 509
    rw [(process_log c rx w).1, (pre_log c rx w).1, hr]
    exact hm
  show (Core.process c rx' w1).2.lg = _
  rw [(process_log c rx' w1).2, (pre_log c rx' w1).2, hr']
  split
  · exact control_other _ h0
  · rfl

/-! ### Concrete cases -/

/-- The memory of a node with a nickname. -/
def w0 : W := node Ex.ctx allOk (mem 0x60) [.process none]

/-- A log control event. -/
def ctl (typ b : U8) : Msg := Ex.msg 509 typ 9 [b]

/-- C57 is violated: a stop event is received; later the application enables the logger, and in the next cycle, without any received event, it is disabled
again: a log call transmits nothing.  The same for the level. -/
theorem C57_violated :
    let id := w0.ps (Ps.addrLogId Ex.ctx)
    let stopped := runOps Ex.ctx [.process (some (ctl 3 id)), .loggerLevel 0xFF, .loggerEnable true] w0
    stopped.lg.on = true ∧ (readMessage Ex.ctx none stopped).1 = none ∧ (runOps Ex.ctx [.process none] stopped).lg.on = false ∧
    (runOps Ex.ctx [.process none, .log 1 1 [65]] stopped).out = stopped.out ∧ (runOps Ex.ctx [.log 1 1 [65]] stopped).out ≠ stopped.out ∧
    (runOps Ex.ctx [.process (some (ctl 4 2)), .loggerLevel 0xFF, .process none] w0).lg.level = 2 := by
  decide +kernel

-- A message of 7 bytes in two frames; the level filter; a failed transmission ends the message.
example : let w := runOps Ex.ctx [.loggerEnable true, .loggerLevel 2] w0
    w.lg.on = true ∧ w.lg.level.toNat.testBit (1 : U8).toNat = true ∧ w.lg.level.toNat.testBit (2 : U8).toNat = false ∧
    ((stepOp Ex.ctx (.log 3 1 [65, 66, 67, 68, 69, 70, 71]) w).2.out.drop w.out.length).map
        (fun o => match o with | .tx m _ => m.data.toList | _ => []) = [[3, 1, 0, 65, 66, 67, 68, 69], [3, 1, 1, 70, 71, 0, 0, 0]] ∧
    (stepOp Ex.ctx (.log 3 2 [65]) w).2.out = w.out ∧
    (stepOp { Ex.ctx with txOk := fun _ => false } (.log 3 1 [65, 66, 67, 68, 69, 70, 71]) w).2.out.length = w.out.length + 1 := by
  decide +kernel

-- Start and stop events with the log id of the node and with another one.
example : let id := w0.ps (Ps.addrLogId Ex.ctx)
    (readMessage Ex.ctx (some (ctl 2 id)) w0).1 = some (ctl 2 id) ∧ w0.lg.on = false ∧
    (stepOp Ex.ctx (.process (some (ctl 2 id))) w0).2.lg.on = true ∧
    (stepOp Ex.ctx (.process (some (ctl 2 (id + 1)))) w0).2.lg.on = false ∧
    (stepOp Ex.ctx (.process (some (ctl 3 id))) (stepOp Ex.ctx (.loggerEnable true) w0).2).2.lg.on = false := by
  decide +kernel

-- The histories of `C57_once_partial` and `C57_other`.
example : let id := w0.ps (Ps.addrLogId Ex.ctx)
    let w1 := runOps Ex.ctx [.tick 5, .restore, .setAlarm 1] (stepOp Ex.ctx (.process (some (ctl 2 id))) w0).2
    (readMessage Ex.ctx none w1).1 = none ∧ w1.lg.on = true ∧
    let w2 := runOps Ex.ctx [.loggerEnable true] (stepOp Ex.ctx (.process (some (Ex.msg 10 6 9 [1]))) w0).2
    (readMessage Ex.ctx none w2).1 = none ∧ w2.lg.on = true := by
  decide +kernel

end Vscp.LogProps
