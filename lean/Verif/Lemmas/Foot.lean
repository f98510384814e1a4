/-
Footprints: every function of the core is a sequence of elementary steps.  For every function it is stated
which kinds of steps it can make.  A relation which is preserved by these steps is preserved by the function.
-/
import Verif.Lemmas.Writes
import Verif.Lemmas.Transport
import Verif.Lemmas.Util
import Verif.Spec.Lamp

namespace Vscp
open M

/-- Kinds of elementary steps. -/
inductive Act
  /-- transmission of a frame by the framework -/
  | tx
  /-- change of the nickname (memory and variable) -/
  | nick
  | seg | flags | user | boot
  /-- complete factory restore -/
  | restore
  /-- write of a byte of the matrix, of its index register, of a byte of the rule set, of an application register -/
  | dmW | dmIdx | ngW | appWrite
  | appRead
  /-- counters of the rule interpreter -/
  | ngVars
  | alarm | page | ext | guid
  /-- change of the state, with the lamp state it shows -/
  | st (s : St)
  /-- init sub state and probed nickname -/
  | ist
  | sec
  /-- calls into the application -/
  | idleEntered | errorEntered | bootReq | event | protoEvent | action | timeUpdate | customHb
  /-- reset request and the variable which remembers it -/
  | resetReq
  | epochSet
  | tm (t : Tmr)
  /-- undefined behaviour -/
  | ub
  /-- reception of a message, initialisation of the transport layer -/
  | lbRead | lbInit
  | rxVar | lg | tick | tmInit | initVars | dmInit | alarmOr | hb | errClr
  /-- transmission of a frame on behalf of the application -/
  | userTx (m : Msg)
deriving DecidableEq

/-- The write-enable bit of the stored node control flags. -/
def writeEnabled (c : Cfg) (w : W) : Prop := (w.ps (Ps.addrFlags c) >>> 5) &&& 0x01 ≠ 0

/-- One byte written to the persistent memory. -/
def putPs (a : Nat) (b : U8) (w : W) : W :=
  { w with ps := fun x => if x = a then b else w.ps x, out := w.out ++ [.psW a b] }

/-- One call recorded. -/
def addOut (o : Out) (w : W) : W := { w with out := w.out ++ [o] }

/-- The application stores nothing but node zone and sub-zone. -/
theorem appStores_mem (c : Ctx) (n : Nat) (page : U16) (addr value : U8) : ∀ x ∈ Core.appStores c n page addr value,
    c.zonePs = true ∧ x.1 = Ps.addrZone c ∨ c.subZonePs = true ∧ x.1 = Ps.addrSubZone c := by
  intro x hx
  unfold Core.appStores at hx
  rcases List.mem_append.mp hx with hx | hx
  · split at hx
    · split at hx
      · rename_i hz
        rw [List.mem_singleton.mp hx]; exact .inl ⟨hz, rfl⟩
      · cases hx
    · cases hx
  · split at hx
    · split at hx
      · rename_i hz
        rw [List.mem_singleton.mp hx]; exact .inr ⟨hz, rfl⟩
      · cases hx
    · cases hx

/-- What a write of an application register does. -/
theorem appWriteRegister_run (c : Ctx) (page : U16) (addr value : U8) (w : W) : (Core.appWriteRegister c page addr value w).2 =
    writeAll (Core.appStores c w.out.length page addr value) (addOut (.appWrite page addr value (c.appWrite w.out.length w.ps page addr value)) w) := by
  simp only [Core.appWriteRegister, bind_run, get_run, emit_run, pure_run, Writes.writeAll _ _]
  rfl

/-- The lamp calls of a change to a state: the pre-active state keeps the lamp of the init state. -/
def lampCalls : St → List Out
  | .preActive => []
  | s => [.lamp (Spec.lampOf s)]

/-- The flag of the configuration, a priority and a class which exist. -/
def Formed (c : Ctx) (m : Msg) : Prop := m.hard = c.hardCoded ∧ m.prio.toNat < 8 ∧ m.cls.toNat < 512

/-- The elementary steps.  `bad` is the circumstance under which behaviour is not defined. -/
def Step (c : Ctx) (bad : Prop) (a : Act) (w w' : W) : Prop :=
  match a with
  | .tx => ∃ m : Msg, (m.oAddr = w.v.nick ∨ w.v.nick = 0xFF ∧ m.cls = 0 ∧ (m.typ = 26 ∨ m.typ = 39)) ∧ Formed c m ∧ (m.size.toNat ≤ 8 ∨ bad) ∧
      w' = (Transport.writeMessage c m w).2
  | .nick => ∃ n, w' = { putPs (Ps.addrNickname c) n w with v := { w.v with nick := n } }
  | .seg => ∃ b, w' = putPs (Ps.addrSegCrc c) b w
  | .flags => ∃ b, w' = putPs (Ps.addrFlags c) b w
  | .user => ∃ i b, i < 5 ∧ w' = putPs (Ps.addrUserId c + i) b w
  | .boot => c.bootLoader = true ∧ ∃ b, w' = putPs (Ps.addrBootFlag c) b w
  | .restore => w' = (Core.restoreFactoryDefaultSettings c w).2
  | .dmW => writeEnabled c w ∧ ∃ i b, i < Ps.sizeDm c ∧ w' = putPs (Ps.addrDm c + i) b w
  | .dmIdx => writeEnabled c w ∧ ∃ b, w' = { w with dm := { w.dm with idx := b } }
  | .ngW => writeEnabled c w ∧ ∃ i b, i < Ps.sizeDmNg c ∧ w' = putPs (Ps.addrDmNg c + i) b w
  | .appWrite => writeEnabled c w ∧ ∃ p a v, w' = (Core.appWriteRegister c p a v w).2
  | .appRead => ∃ p a r, w' = addOut (.appRead p a r) w
  | .ngVars => ∃ n i, w' = { w with dm := { w.dm with ngCnt := n, ngIdx := i } }
  | .alarm => w' = { w with v := { w.v with alarm := 0 } }
  | .page => ∃ p, w' = { w with v := { w.v with page := p } }
  | .ext => ∃ e, w' = { w with v := { w.v with ext := e } }
  | .guid => ∃ g, w' = { w with v := { w.v with guidSt := g } }
  | .st s => (s = .preActive → w.v.st = .init) ∧ w' = { w with v := { w.v with st := s }, out := w.out ++ lampCalls s }
  | .ist => ∃ i p, w' = { w with v := { w.v with ist := i, probe := p } }
  | .sec => ∃ s, w' = { w with v := { w.v with secCnt := s } }
  | .idleEntered => w' = addOut .idleEntered w
  | .errorEntered => w' = addOut .errorEntered w
  | .bootReq => w' = addOut .bootLoaderRequest w
  | .event => ∃ m, w' = addOut (.event m) w
  | .protoEvent => ∃ m h, w' = addOut (.protoEvent m h) w
  | .action => ∃ i p m, w' = addOut (.action i p m) w
  | .timeUpdate => ∃ t, w' = addOut (.timeUpdate t) w
  | .customHb => w' = addOut .customHeartbeat w
  | .resetReq => w.v.resetReq = false ∧ w' = { addOut .resetRequest w with v := { w.v with resetReq := true } }
  | .epochSet => ∃ t, w' = { w with v := { w.v with epoch := t } }
  | .tm t => ∃ x, w' = { w with tm := { w.tm with rem := fun y => if y = t then x else w.tm.rem y } }
  | .ub => bad ∧ w' = { w with ub := true }
  | .lbRead => ∃ rx, (∀ m, rx = some m → m.size.toNat ≤ 8) ∧ w' = (Transport.readMessage c rx w).2
  | .lbInit => w' = (Transport.init c w).2
  | .rxVar => ∃ r, w' = { w with v := { w.v with rx := r } }
  | .lg => ∃ l, w' = { w with lg := l }
  | .tick => ∃ r, w' = { w with tm := { w.tm with rem := r } }
  | .tmInit => ∃ ok, w' = { w with tm := { rem := fun _ => 0, ok := ok } }
  | .initVars => ∃ r, w' = { w with v := { w.v with
      nick := w.ps (Ps.addrNickname c), st := .startup, ist := .probe, resetReq := false, rx := r }, out := w.out ++ [.lamp .blinkSlow] }
  | .dmInit => w' = { w with dm := { w.dm with idx := 0 } }
  | .alarmOr => ∃ a, w' = { w with v := { w.v with alarm := w.v.alarm ||| a } }
  | .hb => w' = { w with v := { w.v with hbOn := !w.v.hbOn } }
  | .errClr => w' = { w with tp := { w.tp with txErr := 0 } }
  | .userTx m => w' = (Transport.writeMessage c m w).2

/-- Sequences of steps of the given kinds. -/
inductive Steps (c : Ctx) (bad : Prop) (A : List Act) : W → W → Prop
  | refl (w : W) : Steps c bad A w w
  | tail {w w' w'' : W} {a : Act} : Steps c bad A w w' → a ∈ A → Step c bad a w' w'' → Steps c bad A w w''

namespace Steps
variable {c : Ctx} {bad : Prop} {A B : List Act}

theorem trans {w w' w'' : W} (h : Steps c bad A w w') (h' : Steps c bad A w' w'') : Steps c bad A w w'' := by
  induction h' with
  | refl => exact h
  | tail _ ha hs ih => exact ih.tail ha hs

theorem one {w w' : W} {a : Act} (ha : a ∈ A) (hs : Step c bad a w w') : Steps c bad A w w' :=
  (Steps.refl w).tail ha hs

theorem mono (hAB : A ⊆ B) {w w' : W} (h : Steps c bad A w w') : Steps c bad B w w' := by
  induction h with
  | refl => exact .refl _
  | tail _ ha hs ih => exact ih.tail (hAB ha) hs

/-- A reflexive and transitive relation which holds for every step holds for sequences. -/
theorem rel {R : W → W → Prop} (hr : ∀ w, R w w) (ht : ∀ w w' w'', R w w' → R w' w'' → R w w'')
    (hs : ∀ a ∈ A, ∀ w w', Step c bad a w w' → R w w') {w w' : W} (h : Steps c bad A w w') : R w w' := by
  induction h with
  | refl => exact hr _
  | tail _ ha h ih => exact ht _ _ _ ih (hs _ ha _ _ h)

/-- An invariant of the steps is an invariant of sequences. -/
theorem inv {P : W → Prop} (hs : ∀ a ∈ A, ∀ w w', Step c bad a w w' → P w → P w') {w w' : W}
    (h : Steps c bad A w w') (hp : P w) : P w' := by
  induction h with
  | refl => exact hp
  | tail _ ha h ih => exact hs _ ha _ _ h ih

end Steps

/-- `m` makes only steps of the given kinds. -/
def Foot (c : Ctx) (bad : Prop) (A : List Act) {α : Type} (m : M α) : Prop := ∀ w, Steps c bad A w (m w).2

namespace Foot
variable {c : Ctx} {bad : Prop} {A B : List Act} {α β : Type}

theorem mono {m : M α} (h : Foot c bad A m) (hAB : A ⊆ B) : Foot c bad B m := fun w => (h w).mono hAB

theorem pure (a : α) : Foot c bad A (pure a : M α) := fun w => .refl w
theorem get : Foot c bad A M.get := fun w => .refl w
theorem bind {m : M α} {f : α → M β} (h : Foot c bad A m) (h' : ∀ a, Foot c bad A (f a)) :
    Foot c bad A (m >>= f) := fun w => (h w).trans (h' _ _)
theorem map {m : M α} {f : α → β} (h : Foot c bad A m) : Foot c bad A (f <$> m) := fun w => h w
theorem ite {p : Prop} [Decidable p] {m m' : M α} (h : p → Foot c bad A m) (h' : ¬p → Foot c bad A m') :
    Foot c bad A (if p then m else m') := by
  split
  · exact h ‹_›
  · exact h' ‹_›
theorem whenM {p : Prop} [Decidable p] {m : M Unit} (h : p → Foot c bad A m) : Foot c bad A (whenM p m) :=
  Foot.ite h (fun _ => Foot.pure ())
theorem forUp {f : Nat → M Unit} (h : ∀ i, Foot c bad A (f i)) (n : Nat) : Foot c bad A (forUp f n) := by
  induction n with
  | zero => exact Foot.pure ()
  | succ n ih => exact Foot.bind ih (fun _ => h n)
theorem one {m : M α} {a : Act} (ha : a ∈ A) (h : ∀ w, Step c bad a w (m w).2) : Foot c bad A m :=
  fun w => .one ha (h w)
theorem psRead8 (a : Nat) : Foot c bad A (psRead8 a) := fun w => .refl w
theorem readIdx (a s i : Nat) : Foot c bad A (Ps.readIdx a s i) := by
  unfold Ps.readIdx; exact Foot.ite (fun _ => Foot.psRead8 _) (fun _ => Foot.pure _)
theorem timerRunning (t : Tmr) : Foot c bad A (timerRunning t) := fun w => .refl w
/-- Functions without effect. -/
theorem of_eq {m : M α} (h : ∀ w, (m w).2 = w) : Foot c bad A m := fun w => by rw [h w]; exact .refl w

theorem timerStart {t : Tmr} (ms : U16) (ht : Act.tm t ∈ A) : Foot c bad A (timerStart t ms) := by
  intro w
  rw [timerStart_run]
  by_cases h : w.tm.ok t = true
  · rw [if_pos h]; exact .one ht ⟨ms, rfl⟩
  · rw [if_neg h]; exact .refl w

theorem timerStop {t : Tmr} (ht : Act.tm t ∈ A) : Foot c bad A (timerStop t) := by
  intro w
  rw [timerStop_run]
  by_cases h : w.tm.ok t = true
  · rw [if_pos h]; exact .one ht ⟨0, rfl⟩
  · rw [if_neg h]; exact .refl w

theorem tx {prio typ : U8} {l : List U8} (hl : l.length ≤ 8 ∨ bad) (ht : Act.tx ∈ A) (hp : prio.toNat < 8 := by decide) : Foot c bad A (Core.tx c prio typ l) := by
  intro w
  refine .one ht ⟨_, .inl rfl, ⟨rfl, hp, show Transport.CLASS_PROTOCOL.toNat < 512 by decide⟩, ?_, rfl⟩
  simp only [BitVec.toNat_ofNat]
  exact hl.imp_left fun h => by omega

theorem txFrom {nick prio typ : U8} {l : List U8} (hl : l.length ≤ 8 ∨ bad) (ht : Act.tx ∈ A) (h : typ = 26 ∨ typ = 39) (w : W)
    (hn : w.v.nick = nick ∨ w.v.nick = 0xFF) (hp : prio.toNat < 8 := by decide) : Steps c bad A w (Core.txFrom c nick prio typ l w).2 := by
  refine .one ht ⟨_, ?_, ⟨rfl, hp, show Transport.CLASS_PROTOCOL.toNat < 512 by decide⟩, ?_, rfl⟩
  · exact hn.imp Eq.symm fun e => ⟨e, rfl, h⟩
  · simp only [BitVec.toNat_ofNat]
    exact hl.imp_left fun h => by omega

theorem txVoid {prio typ : U8} {l : List U8} (hl : l.length ≤ 8 ∨ bad) (ht : Act.tx ∈ A) (hp : prio.toNat < 8 := by decide) :
    Foot c bad A (Core.txVoid c prio typ l) := Foot.bind (Foot.tx hl ht hp) (fun _ => Foot.pure _)

theorem markUb (hb : bad) (h : Act.ub ∈ A) : Foot c bad A markUb := .one h fun _ => ⟨hb, rfl⟩

theorem dataAt {m : Msg} {i : Nat} (h : Act.ub ∈ A) (hb : 8 ≤ i → bad) : Foot c bad A (dataAt m i) := by
  unfold Vscp.dataAt
  by_cases hi : i < 8
  · rw [Vector.getElem?_eq_getElem hi]; exact Foot.pure _
  · rw [Vector.getElem?_eq_none (by omega)]
    exact Foot.bind (Foot.markUb (hb (by omega)) h) (fun _ => Foot.pure _)

theorem guidRead (i : Nat) : Foot c bad A (DevData.getGuid c i) := by
  unfold DevData.getGuid
  exact Foot.ite (fun _ => Foot.readIdx _ _ _) (fun _ => Foot.ite (fun _ => Foot.pure _) (fun _ => Foot.pure _))
theorem mdfRead (i : Nat) : Foot c bad A (DevData.getMdf c i) := by
  unfold DevData.getMdf
  exact Foot.ite (fun _ => Foot.readIdx _ _ _) (fun _ => Foot.pure _)
theorem manuRead (i : Nat) : Foot c bad A (DevData.getManu c i) := by
  unfold DevData.getManu
  exact Foot.ite (fun _ => Foot.readIdx _ _ _) (fun _ => Foot.pure _)
theorem manuSubRead (i : Nat) : Foot c bad A (DevData.getManuSub c i) := by
  unfold DevData.getManuSub
  exact Foot.ite (fun _ => Foot.readIdx _ _ _) (fun _ => Foot.pure _)
theorem famRead (i : Nat) : Foot c bad A (DevData.getFam c i) := by
  unfold DevData.getFam
  exact Foot.ite (fun _ => Foot.ite (fun _ => Foot.map (Foot.readIdx _ _ _)) (fun _ => Foot.pure _)) (fun _ => Foot.pure _)
theorem typeRead (i : Nat) : Foot c bad A (DevData.getType c i) := by
  unfold DevData.getType
  exact Foot.ite (fun _ => Foot.ite (fun _ => Foot.map (Foot.readIdx _ _ _)) (fun _ => Foot.pure _)) (fun _ => Foot.pure _)
theorem zoneRead : Foot c bad A (DevData.getZone c) := by
  unfold DevData.getZone
  exact Foot.ite (fun _ => Foot.psRead8 _) (fun _ => Foot.pure _)
theorem subZoneRead : Foot c bad A (DevData.getSubZone c) := by
  unfold DevData.getSubZone
  exact Foot.ite (fun _ => Foot.psRead8 _) (fun _ => Foot.pure _)

theorem getStartUpControl : Foot c bad A (Core.getStartUpControl c) := fun w => .refl w
theorem getRegAppWriteProtect : Foot c bad A (Core.getRegAppWriteProtect c) := fun w => .refl w

theorem writeNicknameId {n : U8} (h : Act.nick ∈ A) : Foot c bad A (Core.writeNicknameId c n) := by
  refine .one h fun w => ⟨n, ?_⟩
  simp [Core.writeNicknameId, Ps.writeNickname, Ps.readNickname, putPs]

theorem restore (h : Act.restore ∈ A) : Foot c bad A (Core.restoreFactoryDefaultSettings c) := .one h fun _ => rfl

theorem changeToStateInit {b : Bool} (h : [Act.st .init, .ist, .nick] ⊆ A) :
    Foot c bad A (Core.changeToStateInit c b) := by
  simp only [List.cons_subset, List.nil_subset, and_true] at h
  obtain ⟨h2, h3, h4⟩ := h
  unfold Core.changeToStateInit
  refine .bind .get fun w => .whenM fun _ => ?_
  intro w
  rw [bind_run, bind_run]
  exact .trans (.trans (.one h2 ⟨fun h => (by cases h), rfl⟩) (.one h3 ⟨_, _, rfl⟩)) (Foot.writeNicknameId h4 _)

theorem changeToStatePreActive (h : Act.st .preActive ∈ A) (w : W) (hw : w.v.st = .init) :
    Steps c bad A w (Core.changeToStatePreActive w).2 := by
  refine .one h ⟨fun _ => hw, ?_⟩
  unfold Core.changeToStatePreActive
  rw [setV_run]
  simp only [lampCalls, List.append_nil]

theorem changeToStateActive (h : [Act.st .active, .tx, .tm .heartbeat] ⊆ A) :
    Foot c bad A (Core.changeToStateActive c) := by
  simp only [List.cons_subset, List.nil_subset, and_true] at h
  obtain ⟨h2, h3, h4⟩ := h
  unfold Core.changeToStateActive
  refine .bind .get fun w => .whenM fun _ => ?_
  intro w
  rw [bind_run, bind_run]
  exact .trans (.one h2 ⟨fun h => (by cases h), rfl⟩)
    (Foot.bind (.txVoid (.inl (by simp)) h3) (fun _ => .whenM fun _ => .timerStart _ h4) _)

theorem changeToStateIdle (h : [Act.st .idle, .idleEntered] ⊆ A) :
    Foot c bad A (Core.changeToStateIdle c) := by
  simp only [List.cons_subset, List.nil_subset, and_true] at h
  obtain ⟨h2, h3⟩ := h
  unfold Core.changeToStateIdle
  refine .bind .get fun w => .whenM fun _ => ?_
  intro w
  rw [bind_run, bind_run]
  exact .trans (.one h2 ⟨fun h => (by cases h), rfl⟩) (Foot.whenM (fun _ => .one h3 fun w => (rfl : (emit _ w).2 = addOut _ w)) _)

theorem changeToStateReset {t : U8} (h : [Act.st .reset, .sec, .tm .main] ⊆ A) :
    Foot c bad A (Core.changeToStateReset t) := by
  simp only [List.cons_subset, List.nil_subset, and_true] at h
  obtain ⟨h2, h3, h4⟩ := h
  unfold Core.changeToStateReset
  refine .bind .get fun w => .whenM fun _ => ?_
  intro w
  rw [bind_run, bind_run]
  exact .trans (.trans (.one h2 ⟨fun h => (by cases h), rfl⟩) (.one h3 ⟨_, rfl⟩))
    (Foot.ite (fun _ => .timerStart _ h4) (fun _ => .timerStop h4) _)

theorem changeToStateError (h : [Act.st .error, .errorEntered] ⊆ A) :
    Foot c bad A (Core.changeToStateError c) := by
  simp only [List.cons_subset, List.nil_subset, and_true] at h
  obtain ⟨h2, h3⟩ := h
  unfold Core.changeToStateError
  refine .bind .get fun w => .whenM fun _ => ?_
  intro w
  rw [bind_run, bind_run]
  exact .trans (.one h2 ⟨fun h => (by cases h), rfl⟩) (Foot.whenM (fun _ => .one h3 fun w => (rfl : (emit _ w).2 = addOut _ w)) _)

/-! ### Registers -/

set_option maxRecDepth 4000 in
theorem readVscpRegister {addr : U8} (h : Act.alarm ∈ A) : Foot c bad A (Core.readVscpRegister c addr) := by
  unfold Core.readVscpRegister
  dsimp only
  repeat' apply Foot.ite <;> intro _
  all_goals first
    | exact Foot.pure _
    | exact Foot.psRead8 _
    | exact Foot.readIdx _ _ _
    | exact Foot.manuRead _
    | exact Foot.manuSubRead _
    | exact Foot.famRead _
    | exact Foot.typeRead _
    | exact Foot.guidRead _
    | exact Foot.mdfRead _
    | exact .bind .get fun _ => .pure _
    | exact .bind .get fun _ => .bind (.one h fun _ => rfl) fun _ => .pure _

theorem dmRead {page : U16} {addr : U8} : Foot c bad A (Dm.readRegister c page addr) := by
  unfold Dm.readRegister
  refine .ite (fun _ => ?_) (fun _ => ?_)
  · unfold Dm.readRegisterPaged
    refine .ite (fun _ => .ite (fun _ => ?_) (fun _ => .ite (fun _ => ?_) (fun _ => .pure _))) (fun _ => .pure _)
    · exact .bind .get fun _ => .pure _
    · exact .bind .get fun _ => .ite (fun _ => .pure _) (fun _ => .readIdx _ _ _)
  · unfold Dm.readRegisterStd
    split
    · exact .readIdx _ _ _
    · exact .pure _

theorem ngRead {page : U16} {addr : U8} : Foot c bad A (DmNg.readRegister c page addr) := by
  unfold DmNg.readRegister
  exact .ite (fun _ => .readIdx _ _ _) (fun _ => .pure _)

theorem appReadRegister {page : U16} {addr : U8} (h : Act.appRead ∈ A) :
    Foot c bad A (Core.appReadRegister c page addr) := by
  refine .one h fun w => ⟨page, addr, c.appRead w.out.length w.ps page addr, rfl⟩

theorem readRegister {page : U16} {addr : U8} (h : [Act.alarm, .appRead] ⊆ A) :
    Foot c bad A (Core.readRegister c page addr) := by
  simp only [List.cons_subset, List.nil_subset, and_true] at h
  obtain ⟨h1, h2⟩ := h
  unfold Core.readRegister
  exact .ite (fun _ => .readVscpRegister h1) fun _ => .ite (fun _ => .dmRead) fun _ => .ite (fun _ => .ngRead)
    fun _ => .appReadRegister h2

end Foot

/-- Steps of a register write. -/
def writeActs : List Act :=
  [.flags, .user, .page, .tm .reg162, .restore, .dmW, .dmIdx, .ngW, .appWrite]

namespace Foot
variable {c : Ctx} {bad : Prop} {A B : List Act} {α β : Type}

theorem writeVscpRegister {addr value : U8} (h : [Act.flags, .user, .page, .tm .reg162, .restore] ⊆ A) :
    Foot c bad A (Core.writeVscpRegister c addr value) := by
  simp only [List.cons_subset, List.nil_subset, and_true] at h
  obtain ⟨h1, h2, h3, h4, h5⟩ := h
  unfold Core.writeVscpRegister
  dsimp only
  refine .ite (fun _ => ?_) fun _ => .ite (fun ha => ?_) fun _ => .ite (fun _ => ?_) fun _ => .ite (fun _ => ?_) fun _ =>
    .ite (fun _ => ?_) fun _ => .pure _
  · exact .bind (.one h1 fun _ => ⟨value, rfl⟩) fun _ => .bind (.psRead8 _) fun _ => .pure _
  · refine .bind (.one h2 fun w => ⟨addr.toNat - 0x84, value, by omega, ?_⟩) fun _ => .bind (.readIdx _ _ _) fun _ => .pure _
    rw [Ps.writeUserId, Ps.writeIdx, if_pos (by simp [Ps.sizeUserId]; omega)]
    rfl
  · exact .bind (.one h3 fun _ => ⟨_, rfl⟩) fun _ => .bind .get fun _ => .pure _
  · exact .bind (.one h3 fun _ => ⟨_, rfl⟩) fun _ => .bind .get fun _ => .pure _
  · refine .bind ?_ fun _ => .pure _
    unfold Core.writeRestoreStdCfg
    exact .bind (.timerRunning _) fun _ => .ite (fun _ => .timerStart _ h4) fun _ =>
      .ite (fun _ => .bind (.timerStop h4) fun _ => .restore h5) fun _ => .pure _

/-- A write to a register outside of the VSCP registers. -/
theorem writeOuter {page : U16} {addr value : U8} (hout : ¬(page = 0 ∧ 0x80 ≤ addr.toNat ∧ addr.toNat ≤ 0xFF))
    (h : [Act.dmW, .dmIdx, .ngW, .appWrite] ⊆ A) : Foot c bad A (Core.writeRegister c page addr value) := by
  simp only [List.cons_subset, List.nil_subset, and_true] at h
  obtain ⟨h6, h7, h8, h9⟩ := h
  unfold Core.writeRegister
  rw [if_neg hout]
  intro w
  rw [bind_run]
  have hp : Core.getRegAppWriteProtect c w = ((w.ps (Ps.addrFlags c) >>> 5) &&& 0x01, w) := rfl
  rw [hp]
  by_cases hwe : (w.ps (Ps.addrFlags c) >>> 5) &&& 0x01 ≠ 0
  · have hwe' : writeEnabled c w := hwe
    rw [if_pos hwe, bind_run]
    refine Steps.trans ?_ (.refl _)
    have hidx : ∀ (a s i : Nat) (v : U8) (act : Act), act ∈ A →
        (i < s → Step c bad act w (putPs (a + i) v w)) →
        Steps c bad A w ((do Ps.writeIdx a s i v; Ps.readIdx a s i : M U8) w).2 := by
      intro a s i v act hact hst
      rw [bind_run]
      refine Steps.trans ?_ (Foot.readIdx a s i _)
      unfold Ps.writeIdx
      by_cases hi : i < s
      · rw [if_pos hi]; exact .one hact (hst hi)
      · rw [if_neg hi]; exact .refl _
    have hidx' : ∀ (a s i : Nat) (v x : U8) (act : Act), act ∈ A →
        (i < s → Step c bad act w (putPs (a + i) v w)) →
        Steps c bad A w ((do Ps.writeIdx a s i v; Pure.pure x : M U8) w).2 := by
      intro a s i v x act hact hst
      rw [bind_run]
      refine Steps.trans ?_ (.refl _)
      unfold Ps.writeIdx
      by_cases hi : i < s
      · rw [if_pos hi]; exact .one hact (hst hi)
      · rw [if_neg hi]; exact .refl _
    by_cases hd : c.dm ∧ Dm.isDecisionMatrix c page addr
    · rw [if_pos hd]
      unfold Dm.writeRegister
      by_cases hpg : c.dmPaged = true
      · rw [if_pos hpg]
        unfold Dm.writeRegisterPaged
        by_cases hp0 : page = 0
        · rw [if_pos hp0]
          by_cases ha : addr = 0x7E
          · rw [if_pos ha, bind_run]
            refine Steps.trans ?_ (.refl _)
            rw [whenM_run]
            split
            · exact .one h7 ⟨hwe', value, rfl⟩
            · exact .refl _
          · rw [if_neg ha]
            by_cases ha2 : addr = 0x7F
            · rw [if_pos ha2, bind_run, get_run]
              by_cases hr : Dm.rows c ≤ w.dm.idx.toNat / 8
              · rw [if_pos hr]; exact .refl _
              · rw [if_neg hr]
                exact hidx' _ _ _ _ value .dmW h6 fun hi => ⟨hwe', _, _, hi, rfl⟩
            · rw [if_neg ha2]; exact .refl _
        · rw [if_neg hp0]; exact .refl _
      · rw [if_neg hpg]
        unfold Dm.writeRegisterStd
        cases Dm.calculateMatrixIndex c.toCfg page addr with
        | none => exact .refl _
        | some p => exact hidx _ _ _ _ .dmW h6 fun hi => ⟨hwe', _, _, hi, rfl⟩
    · rw [if_neg hd]
      by_cases hn : c.dmNg ∧ DmNg.isDecisionMatrix c page addr
      · rw [if_pos hn]
        unfold DmNg.writeRegister
        by_cases hp : c.ngPage ≤ page.toNat
        · rw [if_pos hp]
          exact hidx _ _ _ _ .ngW h8 fun hi => ⟨hwe', _, _, hi, rfl⟩
        · rw [if_neg hp]; exact .refl _
      · rw [if_neg hn]
        exact .one h9 ⟨hwe', page, addr, value, rfl⟩
  · rw [if_neg hwe]; exact .refl _

/-- A write to a register other than the restore register. -/
theorem writeVscpRegister' {addr value : U8} (hr : addr.toNat ≠ 0xA2) (h : [Act.flags, .user, .page] ⊆ A) :
    Foot c bad A (Core.writeVscpRegister c addr value) := by
  simp only [List.cons_subset, List.nil_subset, and_true] at h
  obtain ⟨h1, h2, h3⟩ := h
  unfold Core.writeVscpRegister
  dsimp only
  refine .ite (fun _ => ?_) fun _ => .ite (fun ha => ?_) fun _ => .ite (fun _ => ?_) fun _ => .ite (fun _ => ?_) fun _ =>
    .ite (fun he => absurd he hr) fun _ => .pure _
  · exact .bind (.one h1 fun _ => ⟨value, rfl⟩) fun _ => .bind (.psRead8 _) fun _ => .pure _
  · refine .bind (.one h2 fun w => ⟨addr.toNat - 0x84, value, by omega, ?_⟩) fun _ => .bind (.readIdx _ _ _) fun _ => .pure _
    rw [Ps.writeUserId, Ps.writeIdx, if_pos (by simp [Ps.sizeUserId]; omega)]
    rfl
  · exact .bind (.one h3 fun _ => ⟨_, rfl⟩) fun _ => .bind .get fun _ => .pure _
  · exact .bind (.one h3 fun _ => ⟨_, rfl⟩) fun _ => .bind .get fun _ => .pure _

theorem writeRegister' {page : U16} {addr value : U8} (hr : ¬(page = 0 ∧ addr.toNat = 0xA2))
    (h : [Act.flags, .user, .page, .dmW, .dmIdx, .ngW, .appWrite] ⊆ A) : Foot c bad A (Core.writeRegister c page addr value) := by
  simp only [List.cons_subset, List.nil_subset, and_true] at h
  obtain ⟨h1, h2, h3, h6, h7, h8, h9⟩ := h
  by_cases hout : page = 0 ∧ 0x80 ≤ addr.toNat ∧ addr.toNat ≤ 0xFF
  · unfold Core.writeRegister
    rw [if_pos hout]
    exact .writeVscpRegister' (fun e => hr ⟨hout.1, e⟩) (by simp [h1, h2, h3])
  · exact .writeOuter hout (by simp [h6, h7, h8, h9])

theorem writeRegister {page : U16} {addr value : U8} (h : writeActs ⊆ A) :
    Foot c bad A (Core.writeRegister c page addr value) := by
  simp only [writeActs, List.cons_subset, List.nil_subset, and_true] at h
  obtain ⟨h1, h2, h3, h4, h5, h6, h7, h8, h9⟩ := h
  by_cases hout : page = 0 ∧ 0x80 ≤ addr.toNat ∧ addr.toNat ≤ 0xFF
  · unfold Core.writeRegister
    rw [if_pos hout]
    exact .writeVscpRegister (by simp [h1, h2, h3, h4, h5])
  · exact .writeOuter hout (by simp [h6, h7, h8, h9])

/-! ### Protocol handlers -/

theorem handleHeartbeat {m : Msg} :
    Foot c bad [.seg, .st .init, .ist, .nick, .epochSet, .timeUpdate] (Core.handleHeartbeat c m) := by
  unfold Core.handleHeartbeat
  refine .whenM fun _ => .bind (.psRead8 _) fun _ => .bind (.whenM fun _ => ?_) fun _ => .whenM fun _ => ?_
  · exact .bind (.one (a := .seg) (by decide) fun w => ⟨_, rfl⟩) fun _ => .bind .get fun _ => .whenM fun _ =>
      .changeToStateInit (by decide)
  · exact .bind (.one (a := .epochSet) (by decide) fun w => ⟨_, rfl⟩) fun _ => .whenM fun _ =>
      .one (a := .timeUpdate) (by decide) fun w => ⟨_, rfl⟩

theorem handleNewNodeOnline {m : Msg} : Foot c bad [.tx] (Core.handleNewNodeOnline c m) := by
  unfold Core.handleNewNodeOnline
  exact .bind .get fun _ => .whenM fun _ => .txVoid (.inl (by simp)) (by decide)

theorem handleProbeAck {m : Msg} : Foot c bad [.st .init, .ist, .nick] (Core.handleProbeAck c m) := by
  unfold Core.handleProbeAck
  exact .bind .get fun _ => .whenM fun _ => .changeToStateInit (by decide)

theorem handleSetNicknameId {m : Msg} : Foot c bad [.nick, .tx] (Core.handleSetNicknameId c m) := by
  unfold Core.handleSetNicknameId
  exact .bind .get fun _ => .whenM fun _ => .bind (.writeNicknameId (by decide)) fun _ =>
    .txVoid (.inl (by simp)) (by decide)

theorem handleDropNicknameId {m : Msg} :
    Foot c bad [.nick, .restore, .st .reset, .sec, .tm .main, .st .idle, .idleEntered]
      (Core.handleDropNicknameId c m) := by
  unfold Core.handleDropNicknameId
  refine .bind .get fun _ => .whenM fun _ => .ite (fun _ => ?_) fun _ => .ite (fun _ => ?_) fun _ => .pure _
  · exact .bind (.writeNicknameId (by decide)) fun _ => .changeToStateReset (by decide)
  · refine .bind (.whenM fun _ => .bind (.restore (by decide)) fun _ => .whenM fun _ => .writeNicknameId (by decide))
      fun _ => .ite (fun _ => .changeToStateReset (by decide)) fun _ => .ite (fun _ => ?_) fun _ => ?_
    · exact .bind (.writeNicknameId (by decide)) fun _ => .changeToStateIdle (by decide)
    · exact .bind (.writeNicknameId (by decide)) fun _ => .changeToStateReset (by decide)

theorem sendRegisterReadWriteRsp {addr v : U8} (h : Act.tx ∈ A) :
    Foot c bad A (Core.sendRegisterReadWriteRsp c addr v) := .txVoid (.inl (by simp)) h

theorem handleReadRegister {m : Msg} : Foot c bad [.alarm, .appRead, .tx] (Core.handleReadRegister c m) := by
  unfold Core.handleReadRegister
  exact .bind .get fun _ => .whenM fun _ => .bind (.readRegister (by decide)) fun _ =>
    .sendRegisterReadWriteRsp (by decide)

theorem handleWriteRegister {m : Msg} : Foot c bad (.tx :: writeActs) (Core.handleWriteRegister c m) := by
  unfold Core.handleWriteRegister
  exact .bind .get fun _ => .whenM fun _ => .bind (.writeRegister (by decide)) fun _ => .whenM fun _ =>
    .sendRegisterReadWriteRsp (by decide)

theorem handleIncrementRegister {m : Msg} :
    Foot c bad (.tx :: .alarm :: .appRead :: writeActs) (Core.handleIncrementRegister c m) := by
  unfold Core.handleIncrementRegister
  exact .bind .get fun _ => .whenM fun _ => .bind (.readRegister (by decide)) fun _ => .bind (.writeRegister (by decide))
    fun _ => .whenM fun _ => .sendRegisterReadWriteRsp (by decide)

theorem handleDecrementRegister {m : Msg} :
    Foot c bad (.tx :: .alarm :: .appRead :: writeActs) (Core.handleDecrementRegister c m) := by
  unfold Core.handleDecrementRegister
  exact .bind .get fun _ => .whenM fun _ => .bind (.readRegister (by decide)) fun _ => .bind (.writeRegister (by decide))
    fun _ => .whenM fun _ => .sendRegisterReadWriteRsp (by decide)

theorem handleEnterBootLoaderMode {m : Msg} :
    Foot c bad [.tx, .st .idle, .idleEntered, .boot, .bootReq] (Core.handleEnterBootLoaderMode c m) := by
  unfold Core.handleEnterBootLoaderMode
  refine .bind .get fun _ => .whenM fun _ => .ite (fun hbl => ?_) fun _ => .txVoid (.inl (by simp)) (by decide)
  refine .bind (.guidRead _) fun _ => .bind (.guidRead _) fun _ => .bind (.guidRead _) fun _ => .bind (.guidRead _)
    fun _ => .ite (fun _ => .txVoid (.inl (by simp)) (by decide)) fun _ => ?_
  exact .bind (.changeToStateIdle (by decide)) fun _ => .bind (.one (a := .boot) (by decide) fun w => ⟨hbl, _, rfl⟩) fun _ =>
    .one (a := .bootReq) (by decide) fun w => rfl

theorem startNodeSegmentInit (h : [Act.st .init, .ist, .nick] ⊆ A) :
    Foot c bad A (Core.startNodeSegmentInit c) := by
  unfold Core.startNodeSegmentInit
  exact .bind .get fun _ => .whenM fun _ => .changeToStateInit h

theorem handleGuidDropNickname {m : Msg} :
    Foot c bad [.guid, .tm .guidDrop, .st .init, .ist, .nick, .st .reset, .sec, .tm .main]
      (Core.handleGuidDropNickname c m) := by
  unfold Core.handleGuidDropNickname
  refine .whenM fun _ => .bind (.whenM fun _ => .bind (.one (a := .guid) (by decide) fun w => ⟨_, rfl⟩) fun _ =>
    .timerStart _ (by decide)) fun _ => .bind (.timerRunning _) fun _ => .ite (fun _ =>
    .one (a := .guid) (by decide) fun w => ⟨_, rfl⟩) fun _ => .bind ?_ fun _ => .bind (.whenM fun _ =>
    .one (a := .guid) (by decide) fun w => ⟨_, rfl⟩) fun _ => .bind .get fun _ => .whenM fun _ =>
    .bind (.timerStop (by decide)) fun _ => .bind (.one (a := .guid) (by decide) fun w => ⟨_, rfl⟩) fun _ =>
    .ite (fun _ => .startNodeSegmentInit (by decide)) fun _ => .bind (.writeNicknameId (by decide)) fun _ =>
    .changeToStateReset (by decide)
  unfold Core.guidPartEqual
  exact .bind (.guidRead _) fun _ => .bind (.guidRead _) fun _ => .bind (.guidRead _) fun _ => .bind (.guidRead _)
    fun _ => .pure _

theorem pageReadLoop {addr : U8} (n index : Nat) (acc : List U8) (hacc : acc.length < 8) :
    Foot c bad [.alarm, .appRead, .tx] (Core.pageReadLoop c addr n index acc) := by
  induction n generalizing index acc with
  | zero => exact .pure _
  | succ n ih =>
    unfold Core.pageReadLoop
    refine .bind .get fun _ => .bind (.readRegister (by decide)) fun _ => .ite (fun _ => ?_) fun h => ?_
    · exact .bind (.txVoid (.inl (by simp; omega)) (by decide)) fun _ => ih _ _ (by simp)
    · exact ih _ _ (by omega)

theorem pageReadLoop_length {addr : U8} (n index : Nat) (acc : List U8) (hacc : acc.length < 8) (w : W) :
    (Core.pageReadLoop c addr n index acc w).1.length < 8 := by
  induction n generalizing index acc w with
  | zero => exact hacc
  | succ n ih =>
    unfold Core.pageReadLoop
    simp only [bind_run, get_run, ite_run]
    split
    · exact ih _ _ (by simp) _
    · exact ih _ _ (by omega) _

theorem bindAt {m : M α} {f : α → M β} (h : Foot c bad A m) (h' : ∀ w, Steps c bad A (m w).2 (f (m w).1 (m w).2).2) :
    Foot c bad A (m >>= f) := fun w => (h w).trans (h' w)

theorem handlePageRead {m : Msg} : Foot c bad [.alarm, .appRead, .tx] (Core.handlePageRead c m) := by
  unfold Core.handlePageRead
  refine .bind .get fun _ => .whenM fun _ => .bindAt (.pageReadLoop _ _ _ (by simp)) fun w => ?_
  have := pageReadLoop_length (c := c) (addr := m.data[1]) (Core.limitNum m.data[1] m.data[2]) 0 [0] (by simp) w
  exact Foot.whenM (fun _ => .txVoid (.inl (by omega)) (by decide)) _

theorem pageWriteLoop {m : Msg} {addr : U8} (n index : Nat) (acc : List U8) (h : 8 < n + index + 2 → bad) :
    Foot c bad (.ub :: .alarm :: writeActs) (Core.pageWriteLoop c m addr n index acc) := by
  induction n generalizing index acc with
  | zero => exact .pure _
  | succ n ih =>
    unfold Core.pageWriteLoop
    exact .bind .get fun _ => .bind (.dataAt (by decide) fun _ => h (by omega)) fun _ => .bind (.writeRegister (by decide))
      fun _ => ih _ _ fun _ => h (by omega)

theorem pageWriteLoop_length {m : Msg} {addr : U8} (n index : Nat) (acc : List U8) (w : W) :
    (Core.pageWriteLoop c m addr n index acc w).1.length = acc.length + n := by
  induction n generalizing index acc w with
  | zero => rfl
  | succ n ih =>
    unfold Core.pageWriteLoop
    simp only [bind_run]
    rw [ih]
    simp; omega

/-- Register writes keep the nickname or restore the factory settings. -/
theorem nick_of_writes {w w' : W} (h : Steps c bad (.ub :: .alarm :: writeActs) w w') :
    w'.v.nick = w.v.nick ∨ w'.v.nick = 0xFF := by
  refine h.rel (R := fun w w' => w'.v.nick = w.v.nick ∨ w'.v.nick = 0xFF) (fun _ => .inl rfl) ?_ ?_
  · rintro w w' w'' h (h' | h')
    · exact h.imp (h'.trans ·) (h'.trans ·)
    · exact .inr h'
  · intro a ha w w' hs
    simp only [writeActs, List.mem_cons, List.not_mem_nil, or_false] at ha
    rcases ha with rfl | rfl | rfl | rfl | rfl | rfl | rfl | rfl | rfl | rfl | rfl
    · obtain ⟨-, rfl⟩ := hs; exact .inl rfl
    · simp only [Step] at hs; subst hs; exact .inl rfl
    · obtain ⟨_, rfl⟩ := hs; exact .inl rfl
    · obtain ⟨_, _, _, rfl⟩ := hs; exact .inl rfl
    · obtain ⟨_, rfl⟩ := hs; exact .inl rfl
    · obtain ⟨_, rfl⟩ := hs; exact .inl rfl
    · simp only [Step] at hs; rw [restore_run] at hs; subst hs; exact .inr rfl
    · obtain ⟨_, _, _, _, rfl⟩ := hs; exact .inl rfl
    · obtain ⟨_, _, rfl⟩ := hs; exact .inl rfl
    · obtain ⟨_, _, _, _, rfl⟩ := hs; exact .inl rfl
    · obtain ⟨_, _, _, _, rfl⟩ := hs; rw [appWriteRegister_run]; exact .inl rfl

theorem limitNum_le (addr num : U8) : Core.limitNum addr num ≤ num.toNat := by
  unfold Core.limitNum
  split <;> omega

theorem handlePageWrite {m : Msg} (hb : 8 < m.size.toNat → bad) :
    Foot c bad (.tx :: .ub :: .alarm :: writeActs) (Core.handlePageWrite c m) := by
  intro w0
  unfold Core.handlePageWrite
  rw [bind_run, get_run]
  simp only
  rw [whenM_run]
  split
  case isFalse => exact .refl _
  rename_i h
  have hl := limitNum_le m.data[1] (m.size - 2)
  have hs : (m.size - 2).toNat = m.size.toNat - 2 := by
    rw [BitVec.toNat_sub]; simp; omega
  have hp := Foot.pageWriteLoop (c := c) (bad := bad) (m := m) (addr := m.data[1]) (Core.limitNum m.data[1] (m.size - 2)) 0 [0]
    (fun _ => hb (by omega)) w0
  rw [bind_run]
  refine Steps.trans (hp.mono (by decide)) ?_
  refine Foot.txFrom ?_ (by decide) (.inl rfl) _ (nick_of_writes hp)
  rw [pageWriteLoop_length]
  by_cases h8 : 8 < m.size.toNat
  · exact .inr (hb h8)
  · refine .inl ?_
    simp only [List.length_cons, List.length_nil]
    omega

theorem whoLoop {rd : Nat → M U8} (hrd : ∀ i, Foot c bad [.tx] (rd i)) (l : List Nat) (acc : List U8) (row : U8)
    (hacc : acc.length < 8) : Foot c bad [.tx] (Core.whoLoop c rd l acc row) := by
  induction l generalizing acc row with
  | nil => exact .pure _
  | cons i is ih =>
    unfold Core.whoLoop
    refine .bind (hrd i) fun _ => .ite (fun _ => ?_) fun h => ?_
    · exact .bind (.txVoid (.inl (by simp; omega)) (by decide)) fun _ => ih _ _ (by simp)
    · exact ih _ _ (by omega)

theorem whoLoop_length {rd : Nat → M U8} (l : List Nat) (acc : List U8) (row : U8)
    (hacc : acc.length < 8) (w : W) : (Core.whoLoop c rd l acc row w).1.1.length < 8 := by
  induction l generalizing acc row w with
  | nil => exact hacc
  | cons i is ih =>
    unfold Core.whoLoop
    simp only [bind_run, ite_run]
    split
    · exact ih _ _ (by simp) _
    · exact ih _ _ (by omega) _

theorem whoBoth {rd rd' : Nat → M U8} (hrd : ∀ i, Foot c bad [.tx] (rd i)) (hrd' : ∀ i, Foot c bad [.tx] (rd' i))
    (l l' : List Nat) : Foot c bad [.tx] (do
      let s ← Core.whoLoop c rd l [0] 1
      let s ← Core.whoLoop c rd' l' s.1 s.2
      Core.txVoid c 3 32 (s.1 ++ List.replicate (8 - s.1.length) 0)) := by
  refine .bindAt (.whoLoop hrd _ _ _ (by simp)) fun w => ?_
  have h1 := whoLoop_length (c := c) (rd := rd) l [0] 1 (by simp) w
  refine Foot.bindAt (.whoLoop hrd' _ _ _ h1) (fun w' => ?_) _
  refine Foot.txVoid (.inl ?_) (by decide) (by decide) _
  have h2 := whoLoop_length (c := c) (rd := rd') l' _ (Core.whoLoop c rd l [0] 1 w).1.2 h1 w'
  simp only [List.length_append, List.length_replicate]
  omega

theorem handleWhoIsThere {m : Msg} : Foot c bad [.tx] (Core.handleWhoIsThere c m) := by
  unfold Core.handleWhoIsThere
  generalize (List.range 16).map (fun i => 15 - i) = l
  generalize List.range 32 = l'
  exact .bind .get fun _ => .whenM fun _ => whoBoth (fun _ => .guidRead _) (fun _ => .mdfRead _) _ _

theorem handleGetDecisionMatrixInfo {m : Msg} : Foot c bad [.tx] (Core.handleGetDecisionMatrixInfo c m) := by
  unfold Core.handleGetDecisionMatrixInfo
  refine .bind .get fun _ => .whenM fun _ => .txVoid (.inl ?_) (by decide)
  split <;> simp

theorem extReadLoop {page : U16} (k : Nat) (addr : U8) (count : U16) (acc : List U8) :
    Foot c bad [.alarm, .appRead] (Core.extReadLoop c page k addr count acc) := by
  induction k generalizing addr count acc with
  | zero => exact .pure _
  | succ k ih =>
    unfold Core.extReadLoop
    exact .bind (.readRegister (by decide)) fun _ => .ite (fun _ => ih _ _ _) fun _ => .pure _

theorem extReadLoop_length {page : U16} (k : Nat) (addr : U8) (count : U16) (acc : List U8) (w : W) :
    (Core.extReadLoop c page k addr count acc w).1.1.length ≤ acc.length + k := by
  induction k generalizing addr count acc w with
  | zero => simp [Core.extReadLoop]
  | succ k ih =>
    unfold Core.extReadLoop
    simp only [bind_run, ite_run]
    split
    · refine Nat.le_trans (ih _ _ _ _) ?_
      simp; omega
    · simp

theorem extendedPageReadRegister :
    Foot c bad [.alarm, .appRead, .tx, .ext] (Core.extendedPageReadRegister c) := by
  unfold Core.extendedPageReadRegister
  refine .bind .get fun w => .whenM fun _ => .bindAt ((Foot.extReadLoop _ _ _ _).mono (by decide)) fun w' => ?_
  refine Foot.bind (.tx (.inl ?_) (by decide)) (fun _ => .whenM fun _ => .one (a := .ext) (by decide) fun w => ⟨_, rfl⟩) _
  exact extReadLoop_length 4 _ _ _ _

theorem handleExtendedPageReadRegister {m : Msg} :
    Foot c bad [.alarm, .appRead, .tx, .ext] (Core.handleExtendedPageReadRegister c m) := by
  unfold Core.handleExtendedPageReadRegister
  exact .bind .get fun w => .whenM fun _ => .bind (.one (a := .ext) (by decide) fun w => ⟨_, rfl⟩) fun _ =>
    .extendedPageReadRegister

theorem extWriteLoop {m : Msg} {page : U16} {addr : U8} (n index : Nat) (acc : List U8) (h : 8 < n + index + 4 → bad) :
    Foot c bad (.ub :: .alarm :: writeActs) (Core.extWriteLoop c m page addr n index acc) := by
  induction n generalizing index acc with
  | zero => exact .pure _
  | succ n ih =>
    unfold Core.extWriteLoop
    exact .bind (.dataAt (by decide) fun _ => h (by omega)) fun _ => .bind (.writeRegister (by decide))
      fun _ => ih _ _ fun _ => h (by omega)

theorem extWriteLoop_length {m : Msg} {page : U16} {addr : U8} (n index : Nat) (acc : List U8) (w : W) :
    (Core.extWriteLoop c m page addr n index acc w).1.length = acc.length + n := by
  induction n generalizing index acc w with
  | zero => rfl
  | succ n ih =>
    unfold Core.extWriteLoop
    simp only [bind_run]
    rw [ih]
    simp; omega

theorem extNum_le (a num : U8) : (if (0xFF - num.toNat) + 1 < a.toNat then (0xFF - a.toNat) + 1 else num.toNat) ≤ num.toNat := by
  split <;> omega

theorem handleExtendedPageWriteRegister {m : Msg} (hb : 8 < m.size.toNat → bad) :
    Foot c bad (.tx :: .ub :: .alarm :: writeActs) (Core.handleExtendedPageWriteRegister c m) := by
  intro w0
  unfold Core.handleExtendedPageWriteRegister
  rw [bind_run, get_run]
  simp only
  rw [whenM_run]
  split
  case isFalse => exact .refl _
  rename_i h
  have hl := extNum_le m.data[3] (m.size - 4)
  have hs : (m.size - 4).toNat = m.size.toNat - 4 := by
    rw [BitVec.toNat_sub]; simp; omega
  have hp := Foot.extWriteLoop (c := c) (bad := bad) (m := m) (page := mkWord m.data[1] m.data[2]) (addr := m.data[3])
    (if (0xFF - (m.size - 4).toNat) + 1 < m.data[3].toNat then (0xFF - m.data[3].toNat) + 1 else (m.size - 4).toNat) 0
    [0, m.data[1], m.data[2], m.data[3]] (fun _ => hb (by omega)) w0
  rw [bind_run]
  refine Steps.trans (hp.mono (by decide)) ?_
  refine Foot.txFrom ?_ (by decide) (.inr rfl) _ (nick_of_writes hp)
  rw [extWriteLoop_length]
  by_cases h8 : 8 < m.size.toNat
  · exact .inr (hb h8)
  · refine .inl ?_
    simp only [List.length_cons, List.length_nil]
    omega

end Foot

/-- Steps of the protocol handlers. -/
def protoActs : List Act :=
  [.tx, .nick, .seg, .boot, .alarm, .appRead, .ext, .guid, .st .init, .st .reset, .st .idle, .ist, .sec,
   .idleEntered, .bootReq, .timeUpdate, .epochSet, .tm .guidDrop, .tm .main, .ub] ++ writeActs

namespace Foot
variable {c : Ctx} {bad : Prop} {A B : List Act} {α β : Type}

theorem handleProtocolClassType {m : Msg} (hb : 8 < m.size.toNat → bad) :
    Foot c bad protoActs (Core.handleProtocolClassType c m) := by
  unfold Core.handleProtocolClassType
  split
  · exact .whenM fun _ => .mono .handleHeartbeat (by decide)
  · exact .mono .handleNewNodeOnline (by decide)
  · exact .mono .handleProbeAck (by decide)
  · exact .mono .handleSetNicknameId (by decide)
  · exact .mono .handleDropNicknameId (by decide)
  · exact .mono .handleReadRegister (by decide)
  · exact .mono .handleWriteRegister (by decide)
  · exact .mono .handleEnterBootLoaderMode (by decide)
  · exact .mono .handleGuidDropNickname (by decide)
  · exact .mono .handlePageRead (by decide)
  · exact .mono (.handlePageWrite hb) (by decide)
  · exact .mono .handleIncrementRegister (by decide)
  · exact .mono .handleDecrementRegister (by decide)
  · exact .mono .handleWhoIsThere (by decide)
  · exact .mono .handleGetDecisionMatrixInfo (by decide)
  · exact .mono .handleExtendedPageReadRegister (by decide)
  · exact .mono (.handleExtendedPageWriteRegister hb) (by decide)
  · exact .pure _

/-! ### Decision matrices -/

theorem dmExecRow {m : Msg} {i : Nat} : Foot c bad [.action] (Dm.execRow c m i) := by
  unfold Dm.execRow
  refine .bind ?_ fun _ => .ite (fun _ => .bind ?_ fun _ => .bind ?_ fun _ => .bind .zoneRead fun _ =>
    .bind .subZoneRead fun _ => .bind (.whenM fun h => absurd (Util.zoneIndex_next _ _ h.2.1) h.2.2) fun _ => ?_)
      fun _ => .pure _
  · unfold Dm.isRowEnabled
    exact .bind (.readIdx _ _ _) fun _ => .pure _
  · unfold Dm.readRow
    refine .bind ?_ fun _ => ?_
    · unfold Ps.readDmMultiple
      exact .ite (fun _ => .map (.of_eq fun _ => rfl)) fun _ => .pure _
    · split <;> exact .pure _
  · refine .ite (fun _ => ?_) fun _ => .pure _
    unfold Dm.readExtRow
    refine .bind ?_ fun _ => ?_
    · unfold Ps.readDmExtMultiple
      exact .ite (fun _ => .map (.of_eq fun _ => rfl)) fun _ => .pure _
    · split <;> exact .pure _
  · split
    · exact .one (a := .action) (by decide) fun w => ⟨_, _, _, rfl⟩
    · exact .pure _

theorem dmExecuteActions {m : Msg} (h : 255 < c.dmRows → bad) : Foot c bad [.action, .ub] (Dm.executeActions c m) := by
  unfold Dm.executeActions
  refine .ite (fun _ => ?_) fun hr => .markUb (h (by omega)) (by decide)
  exact .forUp (fun _ => .mono .dmExecRow (by decide)) _

end Foot
end Vscp
