/-
The window of the restore register (C21).
-/
import Verif.Lemmas.Frame
import Verif.Lemmas.RegWrite
import Verif.Spec.States

namespace Vscp
open M Spec Transport

/-- The window is open: the timer of the restore register is running. -/
def Open162 (w : W) : Prop := w.tm.ok .reg162 = true ∧ w.tm.rem .reg162 ≠ 0

/-- A transition which opens the window only if `P`, and restores the factory settings only if `D`, or if `Q` and the window is
open. -/
def Tr162 (c : Ctx) (P Q D : Prop) (w w' : W) : Prop :=
  w'.tm.ok = w.tm.ok ∧
  (∃ t, w'.out = w.out ++ t ∧ (Out.appRestore ∈ t → D ∨ (Q ∧ (Open162 w ∨ P)))) ∧
  (w'.tm.rem .reg162 = w.tm.rem .reg162 ∨ w'.tm.rem .reg162 = 0 ∨ (P ∧ w'.tm.rem .reg162 = c.multiTimeout))

theorem Tr162.refl {c : Ctx} {P Q D : Prop} (w : W) : Tr162 c P Q D w w :=
  ⟨rfl, ⟨[], by simp, by simp⟩, .inl rfl⟩

theorem Tr162.mono {c : Ctx} {P Q D P' Q' D' : Prop} {w w' : W} (h : Tr162 c P Q D w w') (hp : P → P') (hq : Q → Q') (hd : D → D') :
    Tr162 c P' Q' D' w w' := by
  obtain ⟨h1, ⟨t, h2, h3⟩, h4⟩ := h
  exact ⟨h1, ⟨t, h2, fun h => (h3 h).imp hd fun x => ⟨hq x.1, x.2.imp_right hp⟩⟩, h4.imp_right fun h => h.imp_right fun x => ⟨hp x.1, x.2⟩⟩

theorem Tr162.trans {c : Ctx} {P Q D : Prop} {w w' w'' : W} (h : Tr162 c P Q D w w') (h' : Tr162 c P Q D w' w'') :
    Tr162 c P Q D w w'' := by
  obtain ⟨h1, ⟨t, h2, h3⟩, h4⟩ := h
  obtain ⟨h1', ⟨t', h2', h3'⟩, h4'⟩ := h'
  refine ⟨h1'.trans h1, ⟨t ++ t', by rw [h2', h2, List.append_assoc], ?_⟩, ?_⟩
  · intro hm
    rcases List.mem_append.mp hm with hm | hm
    · exact h3 hm
    · refine (h3' hm).imp_right fun ⟨hq, ho⟩ => ⟨hq, ?_⟩
      rcases ho with ho | ho
      · rcases h4 with h4 | h4 | h4
        · exact .inl ⟨by rw [← h1]; exact ho.1, by rw [← h4]; exact ho.2⟩
        · exact absurd h4 ho.2
        · exact .inr h4.1
      · exact .inr ho
  · rcases h4' with h4' | h4' | h4'
    · rw [h4']; exact h4
    · exact .inr (.inl h4')
    · exact .inr (.inr h4')

/-- Steps which neither use the timer nor restore the settings. -/
theorem Steps.tr162 {c : Ctx} {bad P Q D : Prop} {A : List Act} {w w' : W} (hs : Steps c bad A w w')
    (h1 : A.all (fun a => !a.touches (.tm .reg162)) = true) (h2 : A.all (fun a => !a.touches .ok) = true)
    (h3 : Act.restore ∉ A) : Tr162 c P Q D w w' := by
  refine ⟨hs.same .ok h2, ?_, .inl (hs.same (.tm .reg162) h1)⟩
  obtain ⟨t, ht, ho⟩ := hs.outs
  refine ⟨t, ht, fun hm => ?_⟩
  obtain ⟨a, ha, he⟩ := ho _ hm
  cases a <;> simp [Act.emits] at he
  exact absurd ha h3

theorem writeRestore_tr162 (c : Ctx) (v : U8) (w : W) :
    Tr162 c (v = 0x55) (v = 0xAA) False w (Core.writeRestoreStdCfg c v w).2 := by
  unfold Core.writeRestoreStdCfg
  rw [bind_run, timerRunning_run]
  simp only [ite_run]
  split
  · rename_i h
    rw [timerStart_run]
    dsimp only
    split
    · exact ⟨rfl, ⟨[], by simp, by simp⟩, .inr (.inr ⟨h.1, by simp⟩)⟩
    · exact .refl w
  · split
    · rename_i h
      obtain ⟨h1, h2⟩ := h
      simp only [Bool.and_eq_true, bne_iff_ne, ne_eq] at h2
      rw [bind_run, timerStop_run, if_pos h2.1, restore_run]
      exact ⟨rfl, ⟨_, rfl, fun _ => .inr ⟨h1, .inl h2⟩⟩, .inr (.inl (by simp))⟩
    · exact .refl w

theorem writeRegister_tr162 (c : Ctx) (page : U16) (addr v : U8) (w : W) :
    Tr162 c (page = 0 ∧ addr.toNat = 0xA2 ∧ v = 0x55) (page = 0 ∧ addr.toNat = 0xA2 ∧ v = 0xAA) False w
      (Core.writeRegister c page addr v w).2 := by
  by_cases hr : page = 0 ∧ addr.toNat = 0xA2
  · have e : (Core.writeRegister c page addr v w).2 = (Core.writeRestoreStdCfg c v w).2 := by
      unfold Core.writeRegister
      rw [if_pos ⟨hr.1, by omega, by omega⟩]
      unfold Core.writeVscpRegister
      simp only [hr.2]
      rfl
    rw [e]
    exact (writeRestore_tr162 c v w).mono (fun h => ⟨hr.1, hr.2, h⟩) (fun h => ⟨hr.1, hr.2, h⟩) id
  · exact (Foot.writeRegister' (c := c) (bad := True) (A := [.flags, .user, .page, .dmW, .dmIdx, .ngW, .appWrite]) hr
      (List.Subset.refl _) w).tr162 (by decide) (by decide) (by decide)

theorem Tr162.dataAt {c : Ctx} {P Q D : Prop} (m : Msg) (i : Nat) (w : W) : Tr162 c P Q D w (Vscp.dataAt m i w).2 :=
  (Foot.dataAt (c := c) (bad := True) (A := [.ub]) (by decide) (fun _ => trivial) w).tr162 (by decide) (by decide) (by decide)

theorem dataAt_val (m : Msg) (i : Nat) (w : W) (v : U8) (hv : v ≠ 0) (h : (Vscp.dataAt m i w).1 = v) : m.data[i]? = some v := by
  unfold Vscp.dataAt at h
  cases hd : m.data[i]? with
  | some b => rw [hd] at h; exact congrArg some h
  | none => rw [hd] at h; exact absurd h.symm hv

theorem payload_get {m : Msg} {i : Nat} (h : i < m.size.toNat) : (payload m)[i]? = m.data[i]? := by
  unfold payload
  rw [List.getElem?_take_of_lt h]
  simp

theorem add_ofNat_toNat {a : U8} {i : Nat} (h : a.toNat + i ≤ 0xFF) : (a + BitVec.ofNat 8 i).toNat = a.toNat + i := by
  rw [BitVec.toNat_add, BitVec.toNat_ofNat]; omega

theorem pageWriteLoop_tr162 (c : Ctx) (m : Msg) (addr : U8) (n index : Nat) (acc : List U8) (w : W)
    (hn : addr.toNat + index + n ≤ 0x100) :
    Tr162 c (∃ i, i < index + n ∧ addr.toNat + i = 0xA2 ∧ m.data[2 + i]? = some 0x55)
      (∃ i, i < index + n ∧ addr.toNat + i = 0xA2 ∧ m.data[2 + i]? = some 0xAA) False w
      (Core.pageWriteLoop c m addr n index acc w).2 := by
  induction n generalizing index acc w with
  | zero => exact .refl w
  | succ n ih =>
    unfold Core.pageWriteLoop
    rw [bind_run, get_run, bind_run]
    refine Tr162.trans (.dataAt m (2 + index) w) ?_
    rw [bind_run]
    have h1 := writeRegister_tr162 c w.v.page (addr + BitVec.ofNat 8 index) (dataAt m (2 + index) w).1 (dataAt m (2 + index) w).2
    have ha := add_ofNat_toNat (a := addr) (i := index) (by omega)
    rw [ha] at h1
    refine Tr162.trans (h1.mono ?_ ?_ id) ?_
    · exact fun h => ⟨index, by omega, h.2.1, dataAt_val m _ _ _ (by decide) h.2.2⟩
    · exact fun h => ⟨index, by omega, h.2.1, dataAt_val m _ _ _ (by decide) h.2.2⟩
    · refine (ih (index + 1) _ _ (by omega)).mono ?_ ?_ id
      · exact fun ⟨i, h, h'⟩ => ⟨i, by omega, h'⟩
      · exact fun ⟨i, h, h'⟩ => ⟨i, by omega, h'⟩

theorem extWriteLoop_tr162 (c : Ctx) (m : Msg) (page : U16) (addr : U8) (n index : Nat) (acc : List U8) (w : W)
    (hn : addr.toNat + index + n ≤ 0x100) :
    Tr162 c (page = 0 ∧ ∃ i, i < index + n ∧ addr.toNat + i = 0xA2 ∧ m.data[4 + i]? = some 0x55)
      (page = 0 ∧ ∃ i, i < index + n ∧ addr.toNat + i = 0xA2 ∧ m.data[4 + i]? = some 0xAA) False w
      (Core.extWriteLoop c m page addr n index acc w).2 := by
  induction n generalizing index acc w with
  | zero => exact .refl w
  | succ n ih =>
    unfold Core.extWriteLoop
    rw [bind_run]
    refine Tr162.trans (.dataAt m (4 + index) w) ?_
    rw [bind_run]
    have h1 := writeRegister_tr162 c page (addr + BitVec.ofNat 8 index) (dataAt m (4 + index) w).1 (dataAt m (4 + index) w).2
    have ha := add_ofNat_toNat (a := addr) (i := index) (by omega)
    rw [ha] at h1
    refine Tr162.trans (h1.mono ?_ ?_ id) ?_
    · exact fun h => ⟨h.1, index, by omega, h.2.1, dataAt_val m _ _ _ (by decide) h.2.2⟩
    · exact fun h => ⟨h.1, index, by omega, h.2.1, dataAt_val m _ _ _ (by decide) h.2.2⟩
    · refine (ih (index + 1) _ _ (by omega)).mono ?_ ?_ id
      · exact fun ⟨h0, i, h, h'⟩ => ⟨h0, i, by omega, h'⟩
      · exact fun ⟨h0, i, h, h'⟩ => ⟨h0, i, by omega, h'⟩

theorem vec8_list (d : Vector U8 8) : d.toList = [d[0], d[1], d[2], d[3], d[4], d[5], d[6], d[7]] := by
  apply List.ext_getElem
  · simp
  · intro i h1 h2
    simp only [Vector.length_toList] at h1
    rw [Vector.getElem_toList]
    match i, h1 with
    | 0, _ | 1, _ | 2, _ | 3, _ | 4, _ | 5, _ | 6, _ | 7, _ => rfl

theorem payload_eq2 {m : Msg} (h : m.size = 2) : payload m = [m.data[0], m.data[1]] := by
  unfold payload; rw [h, vec8_list]; rfl
theorem payload_eq3 {m : Msg} (h : m.size = 3) : payload m = [m.data[0], m.data[1], m.data[2]] := by
  unfold payload; rw [h, vec8_list]; rfl
theorem payload_eq1 {m : Msg} (h : m.size = 1) : payload m = [m.data[0]] := by
  unfold payload; rw [h, vec8_list]; rfl
theorem payload_eq0 {m : Msg} (h : m.size = 0) : payload m = [] := by
  unfold payload; rw [h, vec8_list]; rfl

theorem payload_get' {m : Msg} {i : Nat} (h : i < m.size.toNat) (h8 : i < 8) : (payload m)[i]? = some m.data[i] := by
  rw [payload_get h, Vector.getElem?_eq_getElem h8]

theorem mkWord_zero {a b : U8} (h : mkWord a b = 0) : a = 0 ∧ b = 0 := by
  unfold mkWord at h
  have h1 := congrArg wordMsb h
  have h2 := congrArg wordLsb h
  revert h1 h2
  unfold wordMsb wordLsb
  intro h1 h2
  constructor
  · apply BitVec.eq_of_getLsbD_eq
    intro i hi
    have := congrArg (fun x => x.getLsbD i) h1
    simp [hi] at this
    simp
    have h8 : ¬ (8 + i < 8) := by omega
    simpa [hi, show 8 + i < 16 by omega, show i < 16 by omega, h8] using this
  · apply BitVec.eq_of_getLsbD_eq
    intro i hi
    have := congrArg (fun x => x.getLsbD i) h2
    simpa [hi] using this

theorem quietType {c : Ctx} {m : Msg} (h : m.typ.toNat ∉ [8, 11, 25, 29, 30, 38]) :
    Foot c True [.tx, .nick, .seg, .boot, .alarm, .appRead, .ext, .guid, .st .init, .st .reset, .st .idle, .ist, .sec,
      .idleEntered, .bootReq, .timeUpdate, .epochSet, .tm .guidDrop, .tm .main] (Core.handleProtocolClassType c m) := by
  unfold Core.handleProtocolClassType
  split
  · exact .whenM fun _ => .mono .handleHeartbeat (by decide)
  · exact .mono .handleNewNodeOnline (by decide)
  · exact .mono .handleProbeAck (by decide)
  · exact .mono .handleSetNicknameId (by decide)
  · rename_i e; rw [e] at h; simp at h
  · exact .mono .handleReadRegister (by decide)
  · rename_i e; rw [e] at h; simp at h
  · exact .mono .handleEnterBootLoaderMode (by decide)
  · exact .mono .handleGuidDropNickname (by decide)
  · exact .mono .handlePageRead (by decide)
  · rename_i e; rw [e] at h; simp at h
  · rename_i e; rw [e] at h; simp at h
  · rename_i e; rw [e] at h; simp at h
  · exact .mono .handleWhoIsThere (by decide)
  · exact .mono .handleGetDecisionMatrixInfo (by decide)
  · exact .mono .handleExtendedPageReadRegister (by decide)
  · rename_i e; rw [e] at h; simp at h
  · exact .pure _

theorem readRestore_run (c : Ctx) {addr : U8} (h : addr.toNat = 0xA2) (w : W) : Core.readRegister c 0 addr w = (0, w) := by
  unfold Core.readRegister
  rw [if_pos ⟨rfl, by omega, by omega⟩]
  unfold Core.readVscpRegister
  simp only [h]
  rfl

theorem txVoid_tr162 {c : Ctx} {P Q D : Prop} (prio typ : U8) (l : List U8) (w : W) :
    Tr162 c P Q D w (Core.txVoid c prio typ l w).2 := by
  have h : Steps c True [.userTx ⟨prio, 0, typ, w.v.nick, c.hardCoded, BitVec.ofNat 8 l.length, bytes8 l⟩] w (Core.txVoid c prio typ l w).2 :=
    .one (List.mem_singleton.mpr rfl) rfl
  exact h.tr162 rfl rfl (by simp)

theorem txFrom_tr162 {c : Ctx} {P Q D : Prop} (nick prio typ : U8) (l : List U8) (w : W) :
    Tr162 c P Q D w (Core.txFrom c nick prio typ l w).2 := by
  have h : Steps c True [.userTx ⟨prio, 0, typ, nick, c.hardCoded, BitVec.ofNat 8 l.length, bytes8 l⟩] w (Core.txFrom c nick prio typ l w).2 :=
    .one (List.mem_singleton.mpr rfl) rfl
  refine h.tr162 ?_ ?_ ?_
  · rfl
  · rfl
  · simp

theorem whenM_tr162 {c : Ctx} {P Q D : Prop} {p : Prop} [Decidable p] {m : M Unit} {w : W} (h : p → Tr162 c P Q D w (m w).2) :
    Tr162 c P Q D w (whenM p m w).2 := by
  rw [whenM_run]
  split
  · exact h ‹_›
  · exact .refl w

theorem limitNum_bound (addr num : U8) : addr.toNat + Core.limitNum addr num ≤ 0x100 := by
  have := addr.isLt
  have := num.isLt
  unfold Core.limitNum
  split <;> omega

theorem handle_tr162 (c : Ctx) (m : Msg) (hm : m.cls = 0) (w : W) :
    Tr162 c (restoreWrite m w.v.nick 0x55) (restoreWrite m w.v.nick 0xAA) (dropWithDefaults m w.v.nick) w
      (Core.handleProtocolClassType c m w).2 := by
  by_cases hq : m.typ.toNat ∉ [8, 11, 25, 29, 30, 38]
  · exact (quietType hq w).tr162 (by decide) (by decide) (by decide)
  have hq : m.typ.toNat = 8 ∨ m.typ.toNat = 11 ∨ m.typ.toNat = 25 ∨ m.typ.toNat = 29 ∨ m.typ.toNat = 30 ∨ m.typ.toNat = 38 := by
    simp only [List.mem_cons, List.not_mem_nil, or_false] at hq
    omega
  rcases hq with ht | ht | ht | ht | ht | ht
  · have ht' : m.typ = 8 := ofToNat ht rfl
    rw [handler8 ht']
    unfold Core.handleDropNicknameId
    rw [bind_run, get_run]
    refine whenM_tr162 fun h0 => ?_
    simp only [ite_run]
    split
    · exact (Foot.bind (.writeNicknameId (by decide)) (fun _ => .changeToStateReset (by decide)) w :
        Steps c True [.nick, .st .reset, .sec, .tm .main] w _).tr162 (by decide) (by decide) (by decide)
    · split
      · rename_i h1 h2
        rw [bind_run]
        refine Tr162.trans (w' := (whenM (m.data[1] &&& 0x40 ≠ 0) (do
          Core.restoreFactoryDefaultSettings c
          whenM (m.data[1] &&& 0x20 ≠ 0) (Core.writeNicknameId c w.v.nick)) w).2) ?_ ?_
        · refine whenM_tr162 fun h6 => ?_
          rw [bind_run, restore_run]
          refine Tr162.trans (w' := (Core.restoreFactoryDefaultSettings c w).2) ?_ ?_
          · rw [restore_run]
            refine ⟨rfl, ⟨_, rfl, fun _ => .inl ⟨hm, ht', m.data[1], ?_, ?_⟩⟩, .inl rfl⟩
            · have : ∀ f : U8, f &&& 0x40 ≠ 0 → f.getLsbD 6 = true := by decide +kernel
              exact this _ h6
            · rcases h2 with h2 | h2
              · rw [payload_eq2 h2, h0.2]; exact .inl rfl
              · rw [payload_eq3 h2, h0.2]; exact .inr ⟨_, rfl⟩
          · rw [restore_run]
            exact (Foot.whenM (fun _ => .writeNicknameId (by decide)) _ :
              Steps c True [.nick] _ _).tr162 (by decide) (by decide) (by decide)
        · refine (?_ : Steps c True [.nick, .st .reset, .sec, .tm .main, .st .idle, .idleEntered] _ _).tr162
            (by decide) (by decide) (by decide)
          exact Foot.ite (fun _ => .changeToStateReset (by decide)) (fun _ => .ite (fun _ =>
            .bind (.writeNicknameId (by decide)) fun _ => .changeToStateIdle (by decide)) fun _ =>
            .bind (.writeNicknameId (by decide)) fun _ => .changeToStateReset (by decide)) _
      · exact .refl w
  · have ht' : m.typ = 11 := ofToNat ht rfl
    rw [handler11 ht']
    unfold Core.handleWriteRegister
    rw [bind_run, get_run]
    refine whenM_tr162 fun h0 => ?_
    have h8 := payload_eq3 h0.1
    rw [bind_run]
    refine Tr162.trans ((writeRegister_tr162 c 0 m.data[1] m.data[2] w).mono ?_ ?_ False.elim)
      (whenM_tr162 fun _ => txVoid_tr162 3 10 [m.data[1], _] _)
    · rintro ⟨-, h1, h2⟩
      refine ⟨hm, by rw [h8, h0.2]; rfl, .inl ⟨ht', ?_⟩⟩
      rw [h8, h0.2, h2, ofToNat (b := 0xA2) h1 rfl]
    · rintro ⟨-, h1, h2⟩
      refine ⟨hm, by rw [h8, h0.2]; rfl, .inl ⟨ht', ?_⟩⟩
      rw [h8, h0.2, h2, ofToNat (b := 0xA2) h1 rfl]
  · have ht' : m.typ = 25 := ofToNat ht rfl
    rw [handler25 ht']
    unfold Core.handlePageWrite
    rw [bind_run, get_run]
    refine whenM_tr162 fun h0 => ?_
    rw [bind_run]
    have hs : (m.size - 2).toNat = m.size.toNat - 2 := by rw [BitVec.toNat_sub]; simp; omega
    have hl := Foot.limitNum_le m.data[1] (m.size - 2)
    have p0 : (payload m)[0]? = some w.v.nick := by rw [payload_get' (by omega) (by decide), h0.2]
    have p1 : (payload m)[1]? = some m.data[1] := payload_get' (by omega) (by decide)
    refine Tr162.trans ((pageWriteLoop_tr162 c m m.data[1] _ 0 [0] w (by have := limitNum_bound m.data[1] (m.size - 2); omega)).mono
      ?_ ?_ False.elim) (txFrom_tr162 _ _ _ _ _)
    · rintro ⟨i, h1, h2, h3⟩
      exact ⟨hm, p0, .inr (.inl ⟨ht', m.data[1], i, p1, h2, by rw [payload_get (by omega)]; exact h3⟩)⟩
    · rintro ⟨i, h1, h2, h3⟩
      exact ⟨hm, p0, .inr (.inl ⟨ht', m.data[1], i, p1, h2, by rw [payload_get (by omega)]; exact h3⟩)⟩
  · rw [handler29 (ofToNat ht rfl)]
    unfold Core.handleIncrementRegister
    rw [bind_run, get_run]
    refine whenM_tr162 fun h0 => ?_
    rw [bind_run, bind_run]
    refine Tr162.trans ((Foot.readRegister (page := 0) (addr := m.data[1]) (A := [.alarm, .appRead]) (by decide) w :
      Steps c True _ w _).tr162 (by decide) (by decide) (by decide)) ?_
    refine Tr162.trans ((writeRegister_tr162 c 0 m.data[1] ((Core.readRegister c 0 m.data[1] w).1 + 1)
      (Core.readRegister c 0 m.data[1] w).2).mono ?_ ?_ False.elim) (whenM_tr162 fun _ => txVoid_tr162 3 10 [m.data[1], _] _)
    · rintro ⟨-, h1, h2⟩; rw [readRestore_run c h1] at h2; exact absurd (show (0 : U8) + 1 = 0x55 from h2) (by decide)
    · rintro ⟨-, h1, h2⟩; rw [readRestore_run c h1] at h2; exact absurd (show (0 : U8) + 1 = 0xAA from h2) (by decide)
  · rw [handler30 (ofToNat ht rfl)]
    unfold Core.handleDecrementRegister
    rw [bind_run, get_run]
    refine whenM_tr162 fun h0 => ?_
    rw [bind_run, bind_run]
    refine Tr162.trans ((Foot.readRegister (page := 0) (addr := m.data[1]) (A := [.alarm, .appRead]) (by decide) w :
      Steps c True _ w _).tr162 (by decide) (by decide) (by decide)) ?_
    refine Tr162.trans ((writeRegister_tr162 c 0 m.data[1] ((Core.readRegister c 0 m.data[1] w).1 - 1)
      (Core.readRegister c 0 m.data[1] w).2).mono ?_ ?_ False.elim) (whenM_tr162 fun _ => txVoid_tr162 3 10 [m.data[1], _] _)
    · rintro ⟨-, h1, h2⟩; rw [readRestore_run c h1] at h2; exact absurd (show (0 : U8) - 1 = 0x55 from h2) (by decide)
    · rintro ⟨-, h1, h2⟩; rw [readRestore_run c h1] at h2; exact absurd (show (0 : U8) - 1 = 0xAA from h2) (by decide)
  · have ht' : m.typ = 38 := ofToNat ht rfl
    rw [handler38 ht']
    unfold Core.handleExtendedPageWriteRegister
    rw [bind_run, get_run]
    refine whenM_tr162 fun h0 => ?_
    dsimp only
    rw [bind_run]
    have hs : (m.size - 4).toNat = m.size.toNat - 4 := by rw [BitVec.toNat_sub]; simp; omega
    have hl := Foot.extNum_le m.data[3] (m.size - 4)
    have hb : m.data[3].toNat + (if (0xFF - (m.size - 4).toNat) + 1 < m.data[3].toNat then (0xFF - m.data[3].toNat) + 1
        else (m.size - 4).toNat) ≤ 0x100 := by
      have := m.data[3].isLt
      have := (m.size - 4).isLt
      split <;> omega
    have p0 : (payload m)[0]? = some w.v.nick := by rw [payload_get' (by omega) (by decide), h0.2]
    have p1 : (payload m)[1]? = some m.data[1] := payload_get' (by omega) (by decide)
    have p2 : (payload m)[2]? = some m.data[2] := payload_get' (by omega) (by decide)
    have p3 : (payload m)[3]? = some m.data[3] := payload_get' (by omega) (by decide)
    refine Tr162.trans ((extWriteLoop_tr162 c m _ m.data[3] _ 0 _ w (by omega)).mono ?_ ?_ False.elim) (txFrom_tr162 _ _ _ _ _)
    · rintro ⟨hp, i, h1, h2, h3⟩
      obtain ⟨e1, e2⟩ := mkWord_zero hp
      rw [e1] at p1; rw [e2] at p2
      exact ⟨hm, p0, .inr (.inr ⟨ht', p1, p2, m.data[3], i, p3, h2, by rw [payload_get (by omega)]; exact h3⟩)⟩
    · rintro ⟨hp, i, h1, h2, h3⟩
      obtain ⟨e1, e2⟩ := mkWord_zero hp
      rw [e1] at p1; rw [e2] at p2
      exact ⟨hm, p0, .inr (.inr ⟨ht', p1, p2, m.data[3], i, p3, h2, by rw [payload_get (by omega)]; exact h3⟩)⟩

theorem runOps_append (c : Ctx) (l l' : List Op) (w : W) : runOps c (l ++ l') w = runOps c l' (runOps c l w) := by
  induction l generalizing w with
  | nil => rfl
  | cons op l ih => simp only [List.cons_append, runOps]; exact ih _

theorem snoc_induction {α : Type} {P : List α → Prop} (nil : P []) (snoc : ∀ l a, P l → P (l ++ [a])) : ∀ l, P l := by
  have : ∀ l : List α, P l.reverse := by
    intro l
    induction l with
    | nil => exact nil
    | cons a l ih => rw [List.reverse_cons]; exact snoc _ _ ih
  intro l
  rw [← List.reverse_reverse l]
  exact this _

theorem elapsed_append (l l' : List Op) : elapsed (l ++ l') = elapsed l + elapsed l' := by
  induction l with
  | nil => simp [elapsed]
  | cons op l ih => cases op <;> simp [elapsed, ih, Nat.add_assoc]

theorem pre_tr162 {c : Ctx} {P Q D : Prop} (rx : Option Msg) (w : W) : Tr162 c P Q D w (preProcess c rx w).2 :=
  ⟨pre_same c rx w .ok (by decide), ⟨[], by rw [pre_out]; simp, by simp⟩, .inl (pre_same c rx w (.tm .reg162) (by decide))⟩

/-- The steps of a node which is not active. -/
def inactiveActs : List Act := [.guid, .tm .guidDrop, .st .init, .ist, .nick, .st .reset, .sec, .tm .main, .st .active, .tx,
  .tm .heartbeat, .st .preActive, .st .idle, .idleEntered, .resetReq]

theorem inactive_dispatch {c : Ctx} {rx : Option Msg} {w : W} (hst : w.v.st ≠ .active) :
    Steps c True inactiveActs w (Core.dispatch c rx w).2 := by
  unfold Core.dispatch
  rw [bind_run, get_run]
  dsimp only
  cases hs : w.v.st with
  | active => exact absurd hs hst
  | startup => exact Foot.bind (.mono .stateStartup (by decide)) (fun _ => .pure _) _
  | init => exact (Foot.stateInit _ hs).mono (by decide)
  | preActive => exact Foot.bind (.mono .statePreActive (by decide)) (fun _ => .pure _) _
  | reset => exact Foot.bind (.mono .stateReset (by decide)) (fun _ => .pure _) _
  | idle => exact .refl _
  | error => exact .refl _

/-- The handling of a protocol event in a cycle. -/
theorem takes_process {c : Ctx} {rx : Option Msg} {w : W} {m : Msg} (h : Takes c rx w m) (hm : m.cls = 0) :
    ∃ w1 t1, w1.out = w.out ++ t1 ∧ (∀ o ∈ t1, ∃ b, o = .protoEvent m b) ∧
      (∀ k : Comp, [Comp.epoch, .tm .epoch, .lb, .rx, .lg].contains k = false → k.same w w1) ∧
      Steps c True afterActs (Core.handleProtocolClassType c m w1).2 (Core.process c rx w).2 := by
  obtain ⟨ha, hr, hn⟩ := h
  obtain ⟨t1, ht1, ho⟩ := notified_out c m (preProcess c rx w).2
  rw [pre_out] at ht1
  refine ⟨notified c m (preProcess c rx w).2, t1, ht1, ho, fun k hk => ?_, ?_⟩
  · exact Comp.same_trans (pre_same c rx w k hk) (notified_same c m _ k)
  · rw [process_protocol ha (by rw [preProcess_rx, hr]) hm (by rw [pre_out]; exact hn)]
    exact Foot.afterEvent _

theorem process_tr162 (c : Ctx) (rx : Option Msg) (w : W) :
    Tr162 c (∃ m, Takes c rx w m ∧ restoreWrite m w.v.nick 0x55) (∃ m, Takes c rx w m ∧ restoreWrite m w.v.nick 0xAA)
      (∃ m, Takes c rx w m ∧ dropWithDefaults m w.v.nick) w (Core.process c rx w).2 := by
  by_cases ha : w.v.st = .active
  · obtain ⟨w2, h1, h2⟩ := process_active (c := c) (rx := rx) ha
    refine Tr162.trans ?_ (h2.tr162 (by decide) (by decide) (by decide))
    cases h1 with
    | other _ hs => exact Tr162.trans (pre_tr162 rx w) (hs.tr162 (by decide) (by decide) (by decide))
    | handler m hr hm hn h =>
      have hnick : (notified c m (preProcess c rx w).2).v.nick = w.v.nick :=
        (notified_same c m _ .nick).trans (pre_same c rx w .nick (by decide))
      have hnot : Tr162 c (∃ m, Takes c rx w m ∧ restoreWrite m w.v.nick 0x55) (∃ m, Takes c rx w m ∧ restoreWrite m w.v.nick 0xAA)
          (∃ m, Takes c rx w m ∧ dropWithDefaults m w.v.nick) (preProcess c rx w).2 (notified c m (preProcess c rx w).2) := by
        obtain ⟨t, ht, ho⟩ := notified_out c m (preProcess c rx w).2
        refine ⟨notified_same c m _ .ok, ⟨t, ht, fun hm => ?_⟩, .inl (notified_same c m _ (.tm .reg162))⟩
        obtain ⟨_, hx⟩ := ho _ hm
        cases hx
      subst h
      refine Tr162.trans (pre_tr162 rx w) (hnot.trans ?_)
      have := handle_tr162 c m hm (notified c m (preProcess c rx w).2)
      rw [hnick] at this
      exact this.mono (fun h => ⟨m, ⟨ha, hr, hn⟩, h⟩) (fun h => ⟨m, ⟨ha, hr, hn⟩, h⟩) (fun h => ⟨m, ⟨ha, hr, hn⟩, h⟩)
  · rw [process_split]
    refine Tr162.trans (pre_tr162 rx w) ?_
    have hst : (preProcess c rx w).2.v.st ≠ .active := fun h => ha ((pre_same c rx w .st (by decide)).symm.trans h)
    generalize (preProcess c rx w).2 = w1 at *
    generalize (preProcess c rx w).1 = r
    have hd := inactive_dispatch (c := c) (rx := r) hst
    exact hd.tr162 (by decide) (by decide) (by decide)

/-- The timer of the restore register, for every call but `init`, the processing of events and the passing of time. -/
theorem other_rem162 (c : Ctx) (op : Op) (w : W) (h : match op with | .init _ | .process _ | .tick _ => False | _ => True) :
    (stepOp c op w).2.tm = w.tm := by
  have key : ∀ {A : List Act}, Steps c True A w (stepOp c op w).2 → A.all (fun a => !a.touches .ok) = true →
      (∀ t, A.all (fun a => !a.touches (.tm t)) = true) → (stepOp c op w).2.tm = w.tm := by
    intro A hs h1 h2
    have e1 : (stepOp c op w).2.tm.ok = w.tm.ok := hs.same .ok h1
    have e2 : (stepOp c op w).2.tm.rem = w.tm.rem := funext fun t => hs.same (.tm t) (h2 t)
    cases h3 : (stepOp c op w).2.tm
    cases h4 : w.tm
    simp_all
  cases op with
  | init | process | tick => exact h.elim
  | startNodeSegmentInit =>
    exact key (A := [.st .init, .ist, .nick]) (Foot.startNodeSegmentInit (by decide) w) (by decide) (fun t => by cases t <;> decide)
  | restore => exact key (A := [.restore]) (Foot.restore (by decide) w) (by decide) (fun t => by cases t <;> decide)
  | setAlarm | setTime | enableHeartbeat | getTransmitErrors | loggerEnable | loggerLevel => rfl
  | sendEvent m =>
    have hs : Steps c True [.userTx m] w (stepOp c (.sendEvent m) w).2 := .one (List.mem_singleton.mpr rfl) rfl
    exact key hs rfl (fun t => rfl)
  | log id level msg => exact key (A := [.tx]) (Foot.log w) (by decide) (fun t => by cases t <;> decide)
  | logUInt32 id level x => exact key (A := [.tx]) (Foot.log w) (by decide) (fun t => by cases t <;> decide)

theorem init_rem (c : Ctx) (ok : Tmr → Bool) (w : W) (t : Tmr) (ht : t ≠ .epoch) : (Core.init c ok w).2.tm.rem t = 0 := by
  have h := coreInit_tail (c := c) (bad := True) ok w
  have h1 := h.same (.tm t) (by cases t <;> first | decide | exact absurd rfl ht)
  refine (h1.trans ?_)
  obtain ⟨tp, ub, ht⟩ := tpInit_frame c { w with tm := { rem := fun _ => 0, ok := ok } }
  rw [ht]

theorem init_ok (c : Ctx) (ok : Tmr → Bool) (w : W) : (Core.init c ok w).2.tm.ok = ok := by
  have h := coreInit_tail (c := c) (bad := True) ok w
  refine (h.same .ok (by decide)).trans ?_
  obtain ⟨tp, ub, ht⟩ := tpInit_frame c { w with tm := { rem := fun _ => 0, ok := ok } }
  rw [ht]

/-- An open window was opened by a write of 0x55, and not longer ago than the time-out. -/
theorem opened162 (c : Ctx) (ops : List Op) (w : W) (h0 : w.tm.rem .reg162 = 0) (h : (runOps c ops w).tm.rem .reg162 ≠ 0) :
    ∃ pre rx post m, ops = pre ++ .process rx :: post ∧ Takes c rx (runOps c pre w) m ∧
      restoreWrite m (runOps c pre w).v.nick 0x55 ∧ (∀ ok, .init ok ∉ post) ∧
      ((runOps c ops w).tm.rem .reg162).toNat + elapsed post = c.multiTimeout.toNat := by
  induction ops using snoc_induction with
  | nil => exact absurd h0 h
  | snoc ops op ih =>
    rw [runOps_append] at h ⊢
    simp only [runOps] at h ⊢
    by_cases hop : match op with | .init _ | .process _ | .tick _ => False | _ => True
    · have e := other_rem162 c op (runOps c ops w) hop
      rw [e] at h ⊢
      obtain ⟨pre, rx, post, m, h1, h2, h3, h4, h5⟩ := ih h
      refine ⟨pre, rx, post ++ [op], m, by rw [h1]; simp, h2, h3, ?_, ?_⟩
      · intro ok hm
        rcases List.mem_append.mp hm with hm | hm
        · exact h4 ok hm
        · simp only [List.mem_singleton] at hm; subst hm; exact hop
      · rw [elapsed_append]
        have : elapsed [op] = 0 := by cases op <;> first | rfl | exact hop.elim
        omega
    · cases op with
      | init ok => exact absurd (init_rem c ok _ .reg162 (by decide)) h
      | tick ms =>
        have e : (stepOp c (.tick ms) (runOps c ops w)).2.tm.rem .reg162 =
          BitVec.ofNat 16 (((runOps c ops w).tm.rem .reg162).toNat - ms) := rfl
        rw [e] at h ⊢
        have hlt := ((runOps c ops w).tm.rem .reg162).isLt
        have hne : ((runOps c ops w).tm.rem .reg162).toNat - ms ≠ 0 := by
          intro hz; rw [hz] at h; exact h rfl
        have hr : (runOps c ops w).tm.rem .reg162 ≠ 0 := by
          intro hz; rw [hz] at hne; simp at hne
        obtain ⟨pre, rx, post, m, h1, h2, h3, h4, h5⟩ := ih hr
        refine ⟨pre, rx, post ++ [.tick ms], m, by rw [h1]; simp, h2, h3, ?_, ?_⟩
        · intro ok hm
          rcases List.mem_append.mp hm with hm | hm
          · exact h4 ok hm
          · simp at hm
        · rw [elapsed_append]
          simp only [elapsed, BitVec.toNat_ofNat]
          omega
      | process rx =>
        have ht := (process_tr162 c rx (runOps c ops w)).2.2
        have e : (stepOp c (.process rx) (runOps c ops w)).2 = (Core.process c rx (runOps c ops w)).2 := rfl
        rw [e] at h ⊢
        rcases ht with ht | ht | ⟨⟨m, hm1, hm2⟩, ht⟩
        · rw [ht] at h ⊢
          obtain ⟨pre, rx', post, m, h1, h2, h3, h4, h5⟩ := ih h
          refine ⟨pre, rx', post ++ [.process rx], m, by rw [h1]; simp, h2, h3, ?_, ?_⟩
          · intro ok hm
            rcases List.mem_append.mp hm with hm | hm
            · exact h4 ok hm
            · simp at hm
          · rw [elapsed_append]; simp only [elapsed]; omega
        · exact absurd ht h
        · exact ⟨ops, rx, [], m, rfl, hm1, hm2, by simp, by rw [ht]; simp [elapsed]⟩
      | _ => exact absurd trivial hop

end Vscp
