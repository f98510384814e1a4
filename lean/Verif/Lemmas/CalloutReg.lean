/-
Footprints with calls from inside of the register functions of the application.
-/
import Verif.Model.CalloutReg
import Verif.Lemmas.Callout
import Verif.Lemmas.OpSteps

namespace Vscp
open M Spec

/-- The nickname stays, or is dropped. -/
def NickStep (w w' : W) : Prop := w'.v.nick = w.v.nick ∨ w'.v.nick = 0xFF

theorem NickStep.refl (w : W) : NickStep w w := .inl rfl
theorem NickStep.trans {w w' w'' : W} (h : NickStep w w') (h' : NickStep w' w'') : NickStep w w'' := by
  rcases h' with h' | h'
  · exact h.imp (h'.trans ·) (h'.trans ·)
  · exact .inr h'

/-- A function makes only steps of a node with calls in callbacks, and keeps or drops the nickname. -/
def FootR (c : Ctx) (bad : Prop) (P : Msg → Prop) {α : Type} (m : M α) : Prop :=
  ∀ w, StepsU c bad P w (m w).2 ∧ NickStep w (m w).2

namespace FootR
variable {c : Ctx} {bad : Prop} {P : Msg → Prop} {α β : Type}

theorem pure (a : α) : FootR c bad P (pure a : M α) := fun w => ⟨.refl w, .refl w⟩
theorem get : FootR c bad P M.get := fun w => ⟨.refl w, .refl w⟩
theorem bind {m : M α} {f : α → M β} (h : FootR c bad P m) (h' : ∀ a, FootR c bad P (f a)) : FootR c bad P (m >>= f) :=
  fun w => ⟨(h w).1.trans (h' _ _).1, (h w).2.trans (h' _ _).2⟩
theorem ite {p : Prop} [Decidable p] {m m' : M α} (h : p → FootR c bad P m) (h' : ¬p → FootR c bad P m') :
    FootR c bad P (if p then m else m') := by
  split
  · exact h ‹_›
  · exact h' ‹_›
theorem whenM {p : Prop} [Decidable p] {m : M Unit} (h : p → FootR c bad P m) : FootR c bad P (whenM p m) :=
  .ite h fun _ => .pure _
theorem ofSame {A : List Act} {m : M α} (h : Foot c bad A m) (hA : A ⊆ nodeActs) (hn : A.all (fun a => !a.touches .nick) = true) : FootR c bad P m :=
  fun w => ⟨.of hA (h w), .inl ((h w).same .nick hn)⟩
theorem toU {m : M α} (h : FootR c bad P m) : FootU c bad P m := fun w => (h w).1

variable {cb : Callbacks} (hcb : CbOk cb) (hP : ∀ m, Sends cb m → P m)
include hcb hP

theorem callback : FootR c bad P (callback c cb) := by
  intro w
  refine ⟨FootB.callback hcb hP (by decide) w, ?_⟩
  have key : ∀ (l : List Op), (∀ o ∈ l, o.inCallback) → ∀ w, NickStep w (runOps c l w) := by
    intro l
    induction l with
    | nil => intro _ w; exact .refl w
    | cons o l ih =>
      intro h w
      refine NickStep.trans (w' := (stepOp c o w).2) ?_ (ih (fun x hx => h x (by simp [hx])) _)
      have ho := h o (by simp)
      cases o with
      | init | process | tick => exact absurd ho id
      | startNodeSegmentInit =>
        show NickStep w (Core.startNodeSegmentInit c w).2
        unfold Core.startNodeSegmentInit
        rw [bind_run, get_run]
        simp only
        rw [whenM_run]
        split
        · rename_i hi
          refine .inr ?_
          unfold Core.changeToStateInit
          simp only [bind_run, get_run, whenM_run, if_pos hi, emit_run, setV_run, writeNick_run]
          rfl
        · exact .refl w
      | restore =>
        refine .inr ?_
        show (Core.restoreFactoryDefaultSettings c w).2.v.nick = _
        rw [restore_run]; rfl
      | _ => exact .inl (op_same c _ (by intro rx e; cases e) w .nick (by simp [opActs, Act.touches]))
  exact key _ (hcb _) w

theorem readRegister {page : U16} {addr : U8} : FootR c bad P (Core.readRegisterR c cb page addr) :=
  .bind (.ofSame (A := [.alarm, .appRead]) (.readRegister (by decide)) (by decide) (by decide)) fun _ =>
    .bind (.whenM fun _ => .callback hcb hP) fun _ => .pure _

theorem writeRegister {page : U16} {addr value : U8} : FootR c bad P (Core.writeRegisterR c cb page addr value) := by
  refine .bind (fun w => ?_) fun _ => .bind (.whenM fun _ => .callback hcb hP) fun _ => .pure _
  have h : Steps c bad (.ub :: .alarm :: writeActs) w (Core.writeRegister c page addr value w).2 := Foot.writeRegister (by decide) w
  exact ⟨.of (by decide) h, Foot.nick_of_writes h⟩

omit hcb hP in
theorem rsp {addr v : U8} : FootR c bad P (Core.sendRegisterReadWriteRsp c addr v) :=
  .ofSame (A := [.tx]) (.sendRegisterReadWriteRsp (by decide)) (by decide) (by decide)

theorem handleReadRegister {m : Msg} : FootR c bad P (Core.handleReadRegisterR c cb m) := by
  unfold Core.handleReadRegisterR
  exact .bind .get fun _ => .whenM fun _ => .bind (.readRegister hcb hP) fun _ => .rsp

theorem handleWriteRegister {m : Msg} : FootR c bad P (Core.handleWriteRegisterR c cb m) := by
  unfold Core.handleWriteRegisterR
  exact .bind .get fun _ => .whenM fun _ => .bind (.writeRegister hcb hP) fun _ => .whenM fun _ => .rsp

theorem handleIncrementRegister {m : Msg} : FootR c bad P (Core.handleIncrementRegisterR c cb m) := by
  unfold Core.handleIncrementRegisterR
  exact .bind .get fun _ => .whenM fun _ => .bind (.readRegister hcb hP) fun _ => .bind (.writeRegister hcb hP) fun _ => .whenM fun _ => .rsp

theorem handleDecrementRegister {m : Msg} : FootR c bad P (Core.handleDecrementRegisterR c cb m) := by
  unfold Core.handleDecrementRegisterR
  exact .bind .get fun _ => .whenM fun _ => .bind (.readRegister hcb hP) fun _ => .bind (.writeRegister hcb hP) fun _ => .whenM fun _ => .rsp

omit hcb hP in
/-- A page response with the nickname of before. -/
theorem txFrom {nick prio typ : U8} {l : List U8} (hl : l.length ≤ 8 ∨ bad) (h : typ = 26 ∨ typ = 39) (w : W)
    (hn : w.v.nick = nick ∨ w.v.nick = 0xFF) (hp : prio.toNat < 8 := by decide) :
    StepsU c bad P w (Core.txFrom c nick prio typ l w).2 ∧ NickStep w (Core.txFrom c nick prio typ l w).2 := by
  have hs : Steps c bad [.tx] w (Core.txFrom c nick prio typ l w).2 := Foot.txFrom hl (by decide) h w hn hp
  exact ⟨.of (by decide) hs, .inl (hs.same .nick (by decide))⟩

theorem pageReadLoop {nick addr : U8} (n index : Nat) (acc : List U8) (hacc : acc.length < 8) (w : W)
    (hn : w.v.nick = nick ∨ w.v.nick = 0xFF) :
    StepsU c bad P w (Core.pageReadLoopR c cb nick addr n index acc w).2 ∧ NickStep w (Core.pageReadLoopR c cb nick addr n index acc w).2 ∧
      (Core.pageReadLoopR c cb nick addr n index acc w).1.length < 8 := by
  induction n generalizing index acc w with
  | zero => exact ⟨.refl w, .refl w, hacc⟩
  | succ n ih =>
    unfold Core.pageReadLoopR
    rw [bind_run, get_run]
    simp only
    rw [bind_run]
    obtain ⟨h1, h2⟩ := FootR.readRegister (c := c) (bad := bad) hcb hP (page := w.v.page) (addr := addr + BitVec.ofNat 8 index) w
    generalize Core.readRegisterR c cb w.v.page (addr + BitVec.ofNat 8 index) w = x at h1 h2
    have hn1 : x.2.v.nick = nick ∨ x.2.v.nick = 0xFF := by
      rcases h2 with h | h
      · rw [h]; exact hn
      · exact .inr h
    by_cases h8 : 8 ≤ (acc ++ [x.1]).length
    · rw [if_pos h8, bind_run]
      obtain ⟨h3, h4⟩ := txFrom (c := c) (bad := bad) (P := P) (nick := nick) (prio := 3) (typ := 26) (l := acc ++ [x.1])
        (.inl (by simp; omega)) (.inl rfl) x.2 hn1
      have hn2 : (Core.txFrom c nick 3 26 (acc ++ [x.1]) x.2).2.v.nick = nick ∨ (Core.txFrom c nick 3 26 (acc ++ [x.1]) x.2).2.v.nick = 0xFF := by
        rcases h4 with h | h
        · rw [h]; exact hn1
        · exact .inr h
      obtain ⟨h5, h6, h7⟩ := ih (index + 1) [acc.headD 0 + 1] (by simp) _ hn2
      exact ⟨(h1.trans h3).trans h5, (h2.trans h4).trans h6, h7⟩
    · rw [if_neg h8]
      obtain ⟨h5, h6, h7⟩ := ih (index + 1) (acc ++ [x.1]) (by omega) _ hn1
      exact ⟨h1.trans h5, h2.trans h6, h7⟩

theorem handlePageRead {m : Msg} : FootR c bad P (Core.handlePageReadR c cb m) := by
  intro w
  unfold Core.handlePageReadR
  rw [bind_run, get_run]
  simp only
  rw [whenM_run]
  split
  case isFalse => exact ⟨.refl w, .refl w⟩
  rw [bind_run]
  obtain ⟨h1, h2, h3⟩ := pageReadLoop (c := c) (bad := bad) hcb hP (nick := w.v.nick) (addr := m.data[1]) (Core.limitNum m.data[1] m.data[2]) 0 [0]
    (by simp) w (.inl rfl)
  generalize Core.pageReadLoopR c cb w.v.nick m.data[1] (Core.limitNum m.data[1] m.data[2]) 0 [0] w = x at h1 h2 h3
  rw [whenM_run]
  split
  · obtain ⟨h4, h5⟩ := txFrom (c := c) (bad := bad) (P := P) (nick := w.v.nick) (prio := 3) (typ := 26) (l := x.1) (.inl (by omega)) (.inl rfl) x.2 h2
    exact ⟨h1.trans h4, h2.trans h5⟩
  · exact ⟨h1, h2⟩

theorem pageWriteLoop {m : Msg} {addr : U8} (n index : Nat) (acc : List U8) (h : 8 < n + index + 2 → bad) :
    FootR c bad P (Core.pageWriteLoopR c cb m addr n index acc) := by
  induction n generalizing index acc with
  | zero => exact .pure _
  | succ n ih =>
    unfold Core.pageWriteLoopR
    exact .bind .get fun _ => .bind (.ofSame (A := [.ub]) (.dataAt (by decide) fun _ => h (by omega)) (by decide) (by decide)) fun _ =>
      .bind (.writeRegister hcb hP) fun _ => ih _ _ fun _ => h (by omega)

omit hcb hP in
theorem pageWriteLoop_length {m : Msg} {addr : U8} (n index : Nat) (acc : List U8) (w : W) :
    (Core.pageWriteLoopR c cb m addr n index acc w).1.length = acc.length + n := by
  induction n generalizing index acc w with
  | zero => rfl
  | succ n ih =>
    unfold Core.pageWriteLoopR
    simp only [bind_run]
    rw [ih]
    simp; omega

theorem handlePageWrite {m : Msg} (hb : 8 < m.size.toNat → bad) : FootR c bad P (Core.handlePageWriteR c cb m) := by
  intro w
  unfold Core.handlePageWriteR
  rw [bind_run, get_run]
  simp only
  rw [whenM_run]
  split
  case isFalse => exact ⟨.refl w, .refl w⟩
  rename_i h
  have hl := Foot.limitNum_le m.data[1] (m.size - 2)
  have hs : (m.size - 2).toNat = m.size.toNat - 2 := by
    rw [BitVec.toNat_sub]; simp; omega
  obtain ⟨h1, h2⟩ := pageWriteLoop (c := c) (bad := bad) hcb hP (m := m) (addr := m.data[1]) (Core.limitNum m.data[1] (m.size - 2)) 0 [0]
    (fun _ => hb (by omega)) w
  rw [bind_run]
  obtain ⟨h4, h5⟩ := txFrom (c := c) (bad := bad) (P := P) (nick := w.v.nick) (prio := 3) (typ := 26)
    (l := (Core.pageWriteLoopR c cb m m.data[1] (Core.limitNum m.data[1] (m.size - 2)) 0 [0] w).1) (by
      rw [pageWriteLoop_length]
      by_cases h8 : 8 < m.size.toNat
      · exact .inr (hb h8)
      · refine .inl ?_
        simp only [List.length_cons, List.length_nil]
        omega) (.inl rfl) _ h2
  exact ⟨h1.trans h4, h2.trans h5⟩

theorem extReadLoop (k : Nat) (addr : U8) (count : U16) (acc : List U8) : FootR c bad P (Core.extReadLoopR c cb k addr count acc) := by
  induction k generalizing addr count acc with
  | zero => exact .pure _
  | succ k ih =>
    unfold Core.extReadLoopR
    exact .bind .get fun _ => .bind (.readRegister hcb hP) fun _ => .ite (fun _ => ih _ _ _) fun _ => .pure _

omit hcb hP in
theorem extReadLoop_length (k : Nat) (addr : U8) (count : U16) (acc : List U8) (w : W) :
    (Core.extReadLoopR c cb k addr count acc w).1.1.length ≤ acc.length + k := by
  induction k generalizing addr count acc w with
  | zero => simp [Core.extReadLoopR]
  | succ k ih =>
    unfold Core.extReadLoopR
    simp only [bind_run, get_run, ite_run]
    split
    · refine Nat.le_trans (ih _ _ _ _) ?_
      simp; omega
    · simp

theorem extendedPageReadRegister : FootR c bad P (Core.extendedPageReadRegisterR c cb) := by
  intro w
  unfold Core.extendedPageReadRegisterR
  rw [bind_run, get_run]
  simp only
  rw [whenM_run]
  split
  case isFalse => exact ⟨.refl w, .refl w⟩
  rw [bind_run]
  obtain ⟨h1, h2⟩ := extReadLoop (c := c) (bad := bad) hcb hP 4 w.v.ext.addr w.v.ext.count
    [w.v.ext.seq, wordMsb w.v.ext.page, wordLsb w.v.ext.page, w.v.ext.addr] w
  have h3 := extReadLoop_length (c := c) (cb := cb) 4 w.v.ext.addr w.v.ext.count
    [w.v.ext.seq, wordMsb w.v.ext.page, wordLsb w.v.ext.page, w.v.ext.addr] w
  generalize Core.extReadLoopR c cb 4 w.v.ext.addr w.v.ext.count
    [w.v.ext.seq, wordMsb w.v.ext.page, wordLsb w.v.ext.page, w.v.ext.addr] w = x at h1 h2 h3
  rw [bind_run]
  obtain ⟨h4, h5⟩ := txFrom (c := c) (bad := bad) (P := P) (nick := w.v.nick) (prio := 7) (typ := 39) (l := x.1.1) (.inl h3) (.inr rfl) x.2 h2
  obtain ⟨h6, h7⟩ := FootR.whenM (c := c) (bad := bad) (P := P)
    (p := (Transport.writeMessage c ⟨7, Transport.CLASS_PROTOCOL, 39, w.v.nick, c.hardCoded, BitVec.ofNat 8 x.1.1.length, bytes8 x.1.1⟩ x.2).1 = true)
    (m := setV fun v => { v with ext :=
      { page := if x.1.2.2.2 = true then v.ext.page + 1 else v.ext.page
        addr := if x.1.2.2.2 = true then 0 else x.1.2.1
        count := x.1.2.2.1
        seq := v.ext.seq + 1 } })
    (fun _ => .ofSame (A := [.ext]) (.one (a := .ext) (by decide) fun w => ⟨_, rfl⟩) (by decide) (by decide))
    (Transport.writeMessage c ⟨7, Transport.CLASS_PROTOCOL, 39, w.v.nick, c.hardCoded, BitVec.ofNat 8 x.1.1.length, bytes8 x.1.1⟩ x.2).2
  exact ⟨(h1.trans h4).trans h6, (h2.trans h5).trans h7⟩

theorem handleExtendedPageReadRegister {m : Msg} : FootR c bad P (Core.handleExtendedPageReadRegisterR c cb m) := by
  unfold Core.handleExtendedPageReadRegisterR
  exact .bind .get fun w => .whenM fun _ => .bind (.ofSame (A := [.ext]) (.one (a := .ext) (by decide) fun w => ⟨_, rfl⟩) (by decide) (by decide)) fun _ =>
    .extendedPageReadRegister hcb hP

theorem extWriteLoop {m : Msg} {page : U16} {addr : U8} (n index : Nat) (acc : List U8) (h : 8 < n + index + 4 → bad) :
    FootR c bad P (Core.extWriteLoopR c cb m page addr n index acc) := by
  induction n generalizing index acc with
  | zero => exact .pure _
  | succ n ih =>
    unfold Core.extWriteLoopR
    exact .bind (.ofSame (A := [.ub]) (.dataAt (by decide) fun _ => h (by omega)) (by decide) (by decide)) fun _ =>
      .bind (.writeRegister hcb hP) fun _ => ih _ _ fun _ => h (by omega)

omit hcb hP in
theorem extWriteLoop_length {m : Msg} {page : U16} {addr : U8} (n index : Nat) (acc : List U8) (w : W) :
    (Core.extWriteLoopR c cb m page addr n index acc w).1.length = acc.length + n := by
  induction n generalizing index acc w with
  | zero => rfl
  | succ n ih =>
    unfold Core.extWriteLoopR
    simp only [bind_run]
    rw [ih]
    simp; omega

theorem handleExtendedPageWriteRegister {m : Msg} (hb : 8 < m.size.toNat → bad) : FootR c bad P (Core.handleExtendedPageWriteRegisterR c cb m) := by
  intro w
  unfold Core.handleExtendedPageWriteRegisterR
  rw [bind_run, get_run]
  simp only
  rw [whenM_run]
  split
  case isFalse => exact ⟨.refl w, .refl w⟩
  rename_i h
  have hl := Foot.extNum_le m.data[3] (m.size - 4)
  have hs : (m.size - 4).toNat = m.size.toNat - 4 := by
    rw [BitVec.toNat_sub]; simp; omega
  obtain ⟨h1, h2⟩ := extWriteLoop (c := c) (bad := bad) hcb hP (m := m) (page := mkWord m.data[1] m.data[2]) (addr := m.data[3])
    (if (0xFF - (m.size - 4).toNat) + 1 < m.data[3].toNat then (0xFF - m.data[3].toNat) + 1 else (m.size - 4).toNat) 0
    [0, m.data[1], m.data[2], m.data[3]] (fun _ => hb (by omega)) w
  rw [bind_run]
  obtain ⟨h4, h5⟩ := txFrom (c := c) (bad := bad) (P := P) (nick := w.v.nick) (prio := 3) (typ := 39)
    (l := (Core.extWriteLoopR c cb m (mkWord m.data[1] m.data[2]) m.data[3]
      (if (0xFF - (m.size - 4).toNat) + 1 < m.data[3].toNat then (0xFF - m.data[3].toNat) + 1 else (m.size - 4).toNat) 0
      [0, m.data[1], m.data[2], m.data[3]] w).1) (by
      rw [extWriteLoop_length]
      by_cases h8 : 8 < m.size.toNat
      · exact .inr (hb h8)
      · refine .inl ?_
        simp only [List.length_cons, List.length_nil]
        omega) (.inr rfl) _ h2
  exact ⟨h1.trans h4, h2.trans h5⟩

end FootR

namespace FootU
variable {c : Ctx} {bad : Prop} {P : Msg → Prop} {cb : Callbacks} (hcb : CbOk cb) (hP : ∀ m, Sends cb m → P m)
include hcb hP

theorem withIdle {α : Type} {m : M α} (h : FootU c bad P m) : FootU c bad P (Core.withIdle c cb m) := by
  unfold Core.withIdle
  exact .bind .get fun _ => .bind h fun _ => .bind .get fun _ => .bind (.whenM fun _ => FootB.callback hcb hP) fun _ => .pure _

theorem withIdle_at {α : Type} {m : M α} {w : W} (h : StepsU c bad P w (m w).2) : StepsU c bad P w (Core.withIdle c cb m w).2 := by
  unfold Core.withIdle
  exact h.trans (FootB.bind .get (fun _ => .bind (.whenM fun _ => FootB.callback hcb hP) fun _ => .pure _) _)

theorem handleEnterBootLoaderMode {m : Msg} : FootU c bad P (Core.handleEnterBootLoaderModeR c cb m) := by
  unfold Core.handleEnterBootLoaderModeR
  have hg : ∀ i, FootU c bad P (DevData.getGuid c i) := fun i => .of (A := []) (.guidRead i) (List.nil_subset _)
  have htx : FootU c bad P (Core.txVoid c 3 14 [0]) := .of (A := [.tx]) (.txVoid (.inl (by simp)) (by decide)) (by decide)
  refine .bind .get fun _ => .whenM fun _ => .ite (fun hbl => ?_) fun _ => htx
  refine .bind (hg _) fun _ => .bind (hg _) fun _ => .bind (hg _) fun _ => .bind (hg _) fun _ => .ite (fun _ => htx) fun _ => ?_
  refine .bind (FootU.withIdle hcb hP (.of (A := [.st .idle, .idleEntered]) (.changeToStateIdle (by decide)) (by decide))) fun _ => ?_
  exact .bind (.of (.one (a := .boot) (A := [.boot]) (by decide) fun w => ⟨hbl, _, rfl⟩) (by decide)) fun _ =>
    .bind (.of (.one (a := .bootReq) (A := [.bootReq]) (by decide) fun w => rfl) (by decide)) fun _ => FootB.callback hcb hP

theorem protoR {m : Msg} (hb : 8 < m.size.toNat → bad) : FootU c bad P (Core.handleProtocolClassTypeR c cb m) := by
  unfold Core.handleProtocolClassTypeR
  split
  · exact FootU.withIdle hcb hP (.of .handleDropNicknameId (by decide))
  · exact (FootR.handleReadRegister hcb hP).toU
  · exact (FootR.handleWriteRegister hcb hP).toU
  · exact FootU.handleEnterBootLoaderMode hcb hP
  · exact (FootR.handlePageRead hcb hP).toU
  · exact (FootR.handlePageWrite hcb hP hb).toU
  · exact (FootR.handleIncrementRegister hcb hP).toU
  · exact (FootR.handleDecrementRegister hcb hP).toU
  · exact (FootR.handleExtendedPageReadRegister hcb hP).toU
  · exact (FootR.handleExtendedPageWriteRegister hcb hP hb).toU
  · exact .bind (.of (.handleProtocolClassType hb) (by decide)) fun _ => .whenM fun _ => FootB.callback hcb hP

theorem activeEventR {m : Msg} (hb : 8 < m.size.toNat → bad) (hr : c.dm = true → 255 < c.dmRows → bad)
    (hg : c.dmNg = true → 40 < (c.garbage 0).toNat → bad) : FootU c bad P (Core.activeEventR c cb m) := by
  unfold Core.activeEventR
  refine .bind (.ite (fun _ => .ite (fun _ => ?_) fun _ => FootU.protoR hcb hP hb) fun _ => ?_) fun _ => .bind (.whenM fun h => ?_) fun _ =>
    .whenM fun h => ?_
  · exact .bind .get fun _ => .bind (.of (.one (a := .protoEvent) (A := [.protoEvent]) (by decide) fun w => ⟨_, _, rfl⟩)
      (by decide)) fun _ => .bind (FootB.callback hcb hP) fun _ => .whenM fun _ => FootU.protoR hcb hP hb
  · exact .bind (.of (.one (a := .event) (A := [.event]) (by decide) fun w => ⟨_, rfl⟩) (by decide)) fun _ => FootB.callback hcb hP
  · exact .dmExecuteActions hcb hP (hr h)
  · exact .ngExecuteActions hcb hP hb (hg h)

theorem dispatchR {rx : Option Msg} (hb : ∀ m, rx = some m → 8 < m.size.toNat → bad)
    (hr : c.dm = true → 255 < c.dmRows → bad) (hg : c.dmNg = true → 40 < (c.garbage 0).toNat → bad) :
    FootU c bad P (Core.dispatchR c cb rx) := by
  intro w
  unfold Core.dispatchR
  rw [bind_run, get_run]
  cases hs : w.v.st
  case active =>
    simp only
    unfold Core.stateActiveR Core.activeExtReadR
    refine FootB.bind ?_ (fun _ => .bind (.activeHeartbeat hcb hP) fun _ =>
      .bind (.bind .get fun _ => .ite (fun _ => .bind (FootR.extendedPageReadRegister hcb hP).toU fun _ => .pure _) fun _ => .pure _) fun _ => .pure _) w
    cases rx with
    | none => exact .pure _
    | some m => exact FootU.activeEventR hcb hP (hb m rfl) hr hg
  case init =>
    simp only
    exact StepsB.trans (FootU.withIdle_at hcb hP (m := Core.stateInit c rx) (.of (by decide) (Foot.stateInit w hs))) (.refl _)
  case reset =>
    simp only
    unfold Core.stateResetR
    exact FootB.bind (.bind .get fun _ => .bind (.of .stateReset (by decide)) fun _ => .bind .get fun _ => .whenM fun _ => FootB.callback hcb hP)
      (fun _ => .pure _) w
  all_goals
    simp only
    exact FootB.of (.dispatch hb hr hg) (by decide) w

end FootU

theorem processR_split (c : Ctx) (cb : Callbacks) (rx : Option Msg) (w : W) : Core.processR c cb rx w =
    (((preProcess c rx w).1.isSome || (Core.dispatchR c cb (preProcess c rx w).1 (preProcess c rx w).2).1),
      (Core.dispatchR c cb (preProcess c rx w).1 (preProcess c rx w).2).2) := rfl

theorem initR_split (c : Ctx) (cb : Callbacks) (ok : Tmr → Bool) (w : W) : (stepOpR c cb (.init ok) w).2 =
    (whenM ((Core.init c ok w).1 = false ∧ c.errorCallout = true) (callback c cb) (Core.init c ok w).2).2 := rfl

theorem initR_steps {c : Ctx} {bad : Prop} {P : Msg → Prop} {cb : Callbacks} (hcb : CbOk cb) (hP : ∀ m, Sends cb m → P m) (ok : Tmr → Bool) (w : W) :
    StepsU c bad P (Core.init c ok w).2 (stepOpR c cb (.init ok) w).2 := by
  rw [initR_split]
  exact FootB.whenM (fun _ => FootB.callback hcb hP) _

theorem stepOpR_steps {c : Ctx} {cb : Callbacks} (hcb : CbOk cb) {op : Op} (hop : op.Ok) {w : W} (h : LbOk c w) :
    StepsU c (cfgBad c) (fun m => op = .sendEvent m ∨ Sends cb m) w (stepOpR c cb op w).2 := by
  have other : ∀ o : Op, o.Ok → StepsU c (cfgBad c) (fun m => o = .sendEvent m ∨ Sends cb m) w (stepOp c o w).2 := by
    intro o ho
    refine ⟨userMsgs [o], ?_, stepOp_steps ho h⟩
    intro m hm
    cases o <;> simp [userMsgs] at hm
    subst hm; exact .inl rfl
  cases op with
  | process rx =>
    show StepsU _ _ _ w (Core.processR c cb rx w).2
    rw [processR_split]
    have hrx : ∀ m, rx = some m → m.size.toNat ≤ 8 := by intro m hm; subst hm; exact hop
    refine StepsB.trans (.of (by decide) (preProcess_steps hrx w)) ?_
    refine FootU.dispatchR hcb (fun m hm => .inr hm) ?_ ?_ ?_ _
    · intro m hm h8
      rw [preProcess_rx] at hm
      have := (h.read rx hrx).2.2 m hm
      omega
    · exact fun h1 h2 => .inl ⟨h1, h2⟩
    · exact fun h1 h2 => .inr ⟨h1, h2⟩
  | init ok => exact StepsB.trans (other _ hop) (initR_steps hcb (fun m hm => .inr hm) ok w)
  | _ => exact other _ hop

theorem runOpsR_steps {c : Ctx} (hbad : ¬cfgBad c) (hc : c.loopback = true → Transport.LoopbackCfg c) {cb : Callbacks}
    (hcb : CbOk cb) (ops : List Op) (hops : ∀ op ∈ ops, op.Ok) (w : W) (h : LbOk c w) :
    StepsU c (cfgBad c) (fun m => .sendEvent m ∈ ops ∨ Sends cb m) w (runOpsR c cb ops w) := by
  induction ops generalizing w with
  | nil => exact .refl _
  | cons op ops ih =>
    have h1 := stepOpR_steps hcb (hops op (by simp)) h
    have h2 : LbOk c (stepOpR c cb op w).2 := by
      obtain ⟨L, -, hs⟩ := h1
      exact (hs.lbOk hbad hc h).1
    have h3 := ih (fun o ho => hops o (by simp [ho])) _ h2
    refine StepsB.trans (h1.mono ?_) (h3.mono ?_)
    · rintro m (rfl | hm)
      · exact .inl (by simp)
      · exact .inr hm
    · rintro m (hm | hm)
      · exact .inl (by simp [hm])
      · exact .inr hm

/-- The trace of a history which begins with `init`, with calls in callbacks and in register functions. -/
theorem history_traceR {c : Ctx} (hbad : ¬cfgBad c) (hc : c.loopback = true → Transport.LoopbackCfg c) {cb : Callbacks}
    (hcb : CbOk cb) (ok : Tmr → Bool) (ops : List Op) (hops : ∀ op ∈ ops, op.Ok) (w : W) :
    ∃ t L, (∀ m ∈ L, .sendEvent m ∈ ops ∨ Sends cb m) ∧
      (runOpsR c cb (.init ok :: ops) w).out = w.out ++ t ∧ (runOpsR c cb (.init ok :: ops) w).ps = memAfter w.ps t ∧
      NickOk c (runOpsR c cb (.init ok :: ops) w) ∧ Always (OutOk c L) w.ps t ∧
      (runOpsR c cb (.init ok :: ops) w).ub = w.ub ∧ LbOk c (runOpsR c cb (.init ok :: ops) w) := by
  have e : runOpsR c cb (.init ok :: ops) w = runOpsR c cb ops (stepOpR c cb (.init ok) { w with v := { w.v with
      nick := w.ps (Ps.addrNickname c) } }).2 := by
    show runOpsR c cb ops (stepOpR c cb (.init ok) w).2 = _
    have hi := init_nick c ok w (w.ps (Ps.addrNickname c))
    rw [initR_split, initR_split, hi]
  rw [e]
  have h1 := Foot.coreInit (c := c) (bad := cfgBad c) ok { w with v := { w.v with nick := w.ps (Ps.addrNickname c) } }
  have h2 := init_lbOk hc ok { w with v := { w.v with nick := w.ps (Ps.addrNickname c) } }
  have h0 := initR_steps (c := c) (bad := cfgBad c) (P := fun m => .sendEvent m ∈ ops ∨ Sends cb m) hcb (fun m hm => .inr hm) ok
    { w with v := { w.v with nick := w.ps (Ps.addrNickname c) } }
  have h5 : LbOk c (stepOpR c cb (.init ok) { w with v := { w.v with nick := w.ps (Ps.addrNickname c) } }).2 := by
    obtain ⟨L, -, hs⟩ := h0
    exact (hs.lbOk hbad hc h2.1).1
  obtain ⟨L, hL, h3⟩ := h0.trans (runOpsR_steps hbad hc hcb ops hops _ h5)
  have h4 := h3.lbOk hbad hc h2.1
  obtain ⟨t1, a1, a2, a3⟩ := h1.trace hbad (user := L) (by intro m hm; simp at hm)
  obtain ⟨t2, b1, b2, b3⟩ := h3.trace hbad (user := L) (by
    intro m hm
    rcases List.mem_append.mp hm with hm | hm
    · exact absurd hm (nodeActs_user m)
    · simpa using hm)
  obtain ⟨a4, a5⟩ := a3 rfl
  obtain ⟨b4, b5⟩ := b3 a4
  refine ⟨t1 ++ t2, L, hL, by rw [b1, a1, List.append_assoc], by rw [b2, a2, memAfter_append], b4, a5.append ?_,
    h4.2.trans h2.2, h4.1⟩
  rw [a2] at b5
  exact b5

end Vscp
