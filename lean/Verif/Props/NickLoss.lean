/-
Property theorems: the nickname and the CRC of the segment which a node finds after a loss of power in the middle of a call (C115).
-/
import Verif.Props.SegmentLoss
import Verif.Props.PowerLoss

namespace Vscp.NickLoss
open M Vscp.Spec Vscp.Safety Vscp.Wear Vscp.RestartProps Transport

/-- No byte is written to the place. -/
def None (L : Nat) (l : List (Nat × U8)) : Prop := ∀ b, (L, b) ∉ l

/-- Nothing but 0xFF is written to the place. -/
def Blank (L : Nat) (l : List (Nat × U8)) : Prop := ∀ b, (L, b) ∈ l → b = 0xFF

/-- Nothing but 0xFF is written to the place, unless it is the last byte written there. -/
def Last (L : Nat) (l : List (Nat × U8)) : Prop := ∀ l1 b l2, l = l1 ++ (L, b) :: l2 → b = 0xFF ∨ None L l2

section
variable {L : Nat} {l l' : List (Nat × U8)}

theorem None.blank (h : None L l) : Blank L l := fun b hb => absurd hb (h b)
theorem Blank.last (h : Blank L l) : Last L l := fun l1 b l2 e => .inl (h b (by rw [e]; simp))
theorem None.append (h : None L l) (h' : None L l') : None L (l ++ l') := fun b hb => (List.mem_append.mp hb).elim (h b) (h' b)
theorem Blank.append (h : Blank L l) (h' : Blank L l') : Blank L (l ++ l') := fun b hb => (List.mem_append.mp hb).elim (h b) (h' b)

theorem Blank.before (h : Blank L l) (h' : Last L l') : Last L (l ++ l') := fun l1 b l2 e => by
  rcases List.append_eq_append_iff.mp e with ⟨x, e1, e2⟩ | ⟨x, e1, e2⟩
  · exact h' x b l2 e2
  · cases x with
    | nil => exact h' [] b l2 (by simpa using e2.symm)
    | cons p x =>
      rw [List.cons_append, List.cons.injEq] at e2
      exact .inl (h b (by rw [e1, ← e2.1]; simp))

theorem Last.behind (h : Last L l) (h' : None L l') : Last L (l ++ l') := fun l1 b l2 e => by
  rcases List.append_eq_append_iff.mp e with ⟨x, e1, e2⟩ | ⟨x, e1, e2⟩
  · exact absurd (by rw [e2]; simp) (h' b)
  · cases x with
    | nil => exact absurd (by rw [show l' = (L, b) :: l2 by simpa using e2.symm]; simp) (h' b)
    | cons p x =>
      rw [List.cons_append, List.cons.injEq] at e2
      rcases h l1 b x (by rw [e1, ← e2.1]) with hb | hb
      · exact .inl hb
      · exact .inr (by rw [e2.2]; exact hb.append h')

theorem Last.one (a : Nat) (b : U8) : Last L [(a, b)] := fun l1 b' l2 e => by
  cases l1 with
  | nil =>
    rw [List.nil_append, List.cons.injEq] at e
    rw [← e.2]; exact .inr fun b h => (by cases h)
  | cons p l1 => simp at e

theorem None.nil : None L [] := fun _ h => (by cases h)

/-- The value of a place after some writes. -/
theorem applyWrites_none (h : None L l) (ps : Nat → U8) : applyWrites ps l L = ps L := by
  refine applyWrites_other fun x hx e => h x.2 ?_
  rw [← e]; exact hx

/-- What is found after the first writes. -/
theorem Last.take (h : Last L l) (ps : Nat → U8) (j : Nat) :
    applyWrites ps (l.take j) L = ps L ∨ applyWrites ps (l.take j) L = 0xFF ∨ applyWrites ps (l.take j) L = applyWrites ps l L := by
  have split : ∀ l : List (Nat × U8), None L l ∨ ∃ l1 b l2, l = l1 ++ (L, b) :: l2 ∧ None L l2 := by
    intro l
    induction l with
    | nil => exact .inl .nil
    | cons p l ih =>
      rcases ih with ih | ⟨l1, b, l2, e, hn⟩
      · by_cases hp : p.1 = L
        · exact .inr ⟨[], p.2, l, by rw [← hp]; rfl, ih⟩
        · exact .inl fun b hb => (List.mem_cons.mp hb).elim (fun e => hp (by rw [← e])) (ih b)
      · exact .inr ⟨p :: l1, b, l2, by rw [e]; rfl, hn⟩
  have val : ∀ l1 b l2, None L l2 → applyWrites ps (l1 ++ (L, b) :: l2) L = b := by
    intro l1 b l2 hn
    rw [applyWrites_append]
    show applyWrites _ l2 L = b
    rw [applyWrites_none hn]
    exact if_pos rfl
  rcases split (l.take j) with hn | ⟨l1, b, l2, e, hn⟩
  · exact .inl (applyWrites_none hn ps)
  · right
    have el : l = l1 ++ (L, b) :: (l2 ++ l.drop j) := by
      have := List.take_append_drop j l
      rw [e] at this
      exact this.symm.trans (by simp)
    rw [e, val _ _ _ hn]
    rcases h _ _ _ el with hb | hb
    · exact .inl hb
    · right
      rw [el, val _ _ _ hb]

theorem Blank.value (h : Blank L l) (ps : Nat → U8) : applyWrites ps l L = ps L ∨ applyWrites ps l L = 0xFF := by
  induction l generalizing ps with
  | nil => exact .inl rfl
  | cons p l ih =>
    have h' : Blank L l := fun b hb => h b (List.mem_cons_of_mem _ hb)
    show applyWrites (fun x => if x = p.1 then p.2 else ps x) l L = ps L ∨ applyWrites (fun x => if x = p.1 then p.2 else ps x) l L = 0xFF
    rcases ih h' (fun x => if x = p.1 then p.2 else ps x) with e | e
    · rw [e]
      by_cases hp : L = p.1
      · right; rw [if_pos hp]; exact h p.2 (by rw [hp]; simp)
      · left; rw [if_neg hp]
    · exact .inr e

end

/-- The step does not write the nickname. -/
def _root_.Vscp.Act.noNick : Act → Bool
  | .nick | .restore => false
  | _ => true

/-- The step does not write the CRC of the segment. -/
def _root_.Vscp.Act.noSeg : Act → Bool
  | .seg | .restore => false
  | _ => true

/-- What a part of the code writes. -/
def Does (P : List (Nat × U8) → Prop) (w w' : W) : Prop := ∃ t, w'.out = w.out ++ t ∧ P (storedIn t)

theorem noNick_step {c : Ctx} {a : Act} {w w' : W} (h : a.noNick = true) (hst : Step c True a w w') : Does (None (Ps.addrNickname c)) w w' := by
  have h1 := Restore.layout_low c.toCfg
  have h2 := Restore.layout_mono c.toCfg
  by_cases ha : a = .boot
  · subst ha
    obtain ⟨hb, b, rfl⟩ := hst
    refine ⟨[.psW (Ps.addrBootFlag c) b], rfl, fun b' hm => ?_⟩
    have h3 : Ps.addrNickname c.toCfg = Ps.addrBootFlag c.toCfg + 1 := by unfold Ps.addrNickname Ps.sizeBootFlag; rw [if_pos hb]
    have h4 := mem_storedIn.mp hm
    simp at h4
    omega
  · obtain ⟨t, h3, h4⟩ := hst.outs
    refine ⟨t, h3, fun b hm => ?_⟩
    have he := h4 _ (mem_storedIn.mp hm)
    cases a <;> first | (cases h; done) | (simp [Act.emits] at he; done) | exact absurd rfl ha | (simp [Act.emits] at he; grind)

theorem noSeg_step {c : Ctx} {a : Act} {w w' : W} (h : a.noSeg = true) (hst : Step c True a w w') : Does (None (Ps.addrSegCrc c)) w w' := by
  have h1 := Restore.layout_low c.toCfg
  have h2 := Restore.layout_mono c.toCfg
  have h3 : Ps.addrBootFlag c.toCfg ≤ Ps.addrNickname c.toCfg := Nat.le_add_right _ _
  obtain ⟨t, h3, h4⟩ := hst.outs
  refine ⟨t, h3, fun b hm => ?_⟩
  have he := h4 _ (mem_storedIn.mp hm)
  cases a <;> first | (cases h; done) | (simp [Act.emits] at he; done) | (simp [Act.emits] at he; grind)

theorem restore_blank (c : Cfg) : Blank (Ps.addrNickname c) (Restore.all c) ∧ Blank (Ps.addrSegCrc c) (Restore.all c) := by
  have h1 := Restore.layout_low c
  have key : ∀ x ∈ Restore.all c, x.2 = 0xFF ∨ Ps.addrFlags c ≤ x.1 := by
    intro x hx
    rw [Restore.all, Restore.rest_eq] at hx
    rcases List.mem_cons.mp hx with rfl | hx
    · exact .inl rfl
    rcases List.mem_append.mp hx with hx | hx
    · split at hx
      · rw [List.mem_singleton.mp hx]; exact .inl rfl
      · cases hx
    rcases List.mem_cons.mp hx with rfl | hx
    · exact .inr (Nat.le_refl _)
    · have := Restore.from_t0 c x hx
      exact .inr (by omega)
  constructor
  · intro b hb
    rcases key _ hb with h | h
    · exact h
    · simp only at h; omega
  · intro b hb
    rcases key _ hb with h | h
    · exact h
    · simp only at h; omega

/-- The place is one of the two. -/
structure Place (c : Ctx) (L : Nat) (free : Act → Bool) : Prop where
  no : ∀ {a : Act} {w w' : W}, free a = true → Step c True a w w' → Does (None L) w w'
  restore : Blank L (Restore.all c)

theorem nickPlace (c : Ctx) : Place c (Ps.addrNickname c) Act.noNick := ⟨noNick_step, (restore_blank c).1⟩
theorem segPlace (c : Ctx) : Place c (Ps.addrSegCrc c) Act.noSeg := ⟨noSeg_step, (restore_blank c).2⟩

/-- What a part of the code writes, whatever the state. -/
def Doing (P : List (Nat × U8) → Prop) {α : Type} (m : M α) : Prop := ∀ w, Does P w (m w).2

theorem storedIn_traceOf (l : List (Nat × U8)) : storedIn (traceOf l) = l := by
  induction l with
  | nil => rfl
  | cons p l ih =>
    show p :: storedIn (traceOf l) = p :: l
    rw [ih]

section
variable {c : Ctx} {L : Nat} {free : Act → Bool} {A : List Act} {α β : Type}

theorem steps_none (hp : Place c L free) {w w' : W} (hs : Steps c True A w w') (h : A.all free = true) : Does (None L) w w' := by
  refine hs.rel (R := Does (None L)) (fun w => ⟨[], by simp, None.nil⟩) ?_ fun a ha w w' hst => hp.no (List.all_eq_true.mp h a ha) hst
  rintro w w' w'' ⟨t, h1, h2⟩ ⟨t', h1', h2'⟩
  exact ⟨t ++ t', by rw [h1', h1, List.append_assoc], by rw [storedIn_append]; exact h2.append h2'⟩

theorem steps_blank (hp : Place c L free) {w w' : W} (hs : Steps c True A w w') (h : A.all (fun a => free a || a == .restore) = true) : Does (Blank L) w w' := by
  refine hs.rel (R := Does (Blank L)) (fun w => ⟨[], by simp, None.nil.blank⟩) ?_ ?_
  · rintro w w' w'' ⟨t, h1, h2⟩ ⟨t', h1', h2'⟩
    exact ⟨t ++ t', by rw [h1', h1, List.append_assoc], by rw [storedIn_append]; exact h2.append h2'⟩
  · intro a ha w w' hst
    have hf := List.all_eq_true.mp h a ha
    rw [Bool.or_eq_true] at hf
    rcases hf with hf | hf
    · obtain ⟨t, h1, h2⟩ := hp.no hf hst
      exact ⟨t, h1, h2.blank⟩
    · have e := eq_of_beq hf
      subst e
      simp only [Step] at hst
      rw [restore_run] at hst
      subst hst
      refine ⟨_, rfl, ?_⟩
      rw [storedIn_append, storedIn_traceOf]
      exact hp.restore.append (None.blank fun b h => (by cases h))

theorem Doing.none (hp : Place c L free) {m : M α} (hf : Foot c True A m) (h : A.all free = true) : Doing (None L) m := fun w => steps_none hp (hf w) h
theorem Doing.blank (hp : Place c L free) {m : M α} (hf : Foot c True A m) (h : A.all (fun a => free a || a == .restore) = true) : Doing (Blank L) m :=
  fun w => steps_blank hp (hf w) h

theorem Doing.mono {P Q : List (Nat × U8) → Prop} {m : M α} (h : Doing P m) (hPQ : ∀ l, P l → Q l) : Doing Q m := fun w => by
  obtain ⟨t, h1, h2⟩ := h w
  exact ⟨t, h1, hPQ _ h2⟩

theorem Doing.seq {P Q R : List (Nat × U8) → Prop} (hPQ : ∀ {l l'}, P l → Q l' → R (l ++ l')) {m : M α} {f : α → M β} (h : Doing P m) (h' : ∀ a, Doing Q (f a)) :
    Doing R (m >>= f) := fun w => by
  obtain ⟨t, h1, h2⟩ := h w
  obtain ⟨t', h1', h2'⟩ := h' (m w).1 (m w).2
  exact ⟨t ++ t', by rw [bind_run, h1', h1, List.append_assoc], by rw [storedIn_append]; exact hPQ h2 h2'⟩

theorem Doing.whenM {P : List (Nat × U8) → Prop} (h0 : P []) {p : Prop} [Decidable p] {m : M Unit} (h : p → Doing P m) : Doing P (whenM p m) := fun w => by
  rw [whenM_run]
  split
  · rename_i hp; exact h hp w
  · exact ⟨[], by simp, h0⟩

theorem Doing.ite {P : List (Nat × U8) → Prop} {p : Prop} [Decidable p] {m m' : M α} (h : p → Doing P m) (h' : ¬p → Doing P m') : Doing P (if p then m else m') := by
  split
  · rename_i hp; exact h hp
  · rename_i hp; exact h' hp

theorem Doing.pure {P : List (Nat × U8) → Prop} (h0 : P []) (a : α) : Doing P (pure a : M α) := fun _ => ⟨[], (List.append_nil _).symm, h0⟩

theorem nick_last (n : U8) : Doing (Last (Ps.addrNickname c)) (Core.writeNicknameId c n) := fun w => by
  rw [writeNick_run]
  exact ⟨[.psW (Ps.addrNickname c) n], rfl, Last.one _ _⟩

theorem nick_blank : Doing (Blank (Ps.addrNickname c)) (Core.writeNicknameId c Core.NOT_INIT) := fun w => by
  rw [writeNick_run]
  refine ⟨[.psW (Ps.addrNickname c) Core.NOT_INIT], rfl, fun b hb => ?_⟩
  have : storedIn [.psW (Ps.addrNickname c) Core.NOT_INIT] = [(Ps.addrNickname c, 0xFF)] := rfl
  rw [this] at hb
  simpa using hb

theorem init_blank (b : Bool) : Doing (Blank (Ps.addrNickname c)) (Core.changeToStateInit c b) := fun w => by
  unfold Core.changeToStateInit
  rw [bind_run, get_run, whenM_run]
  split
  · rw [bind_run, bind_run, writeNick_run]
    refine ⟨[.lamp .blinkFast, .psW (Ps.addrNickname c) Core.NOT_INIT], by simp, fun b hb => ?_⟩
    have : storedIn [.lamp .blinkFast, .psW (Ps.addrNickname c) Core.NOT_INIT] = [(Ps.addrNickname c, 0xFF)] := rfl
    rw [this] at hb
    simpa using hb
  · exact ⟨[], by simp, None.nil.blank⟩

theorem read_only {free : Act → Bool} {L : Nat} (hp : Place c L free) {P : List (Nat × U8) → Prop} (hP : ∀ l, None L l → P l) {m : M α} (hf : Foot c True A m)
    (h : A.all free = true) : Doing P m := .mono (.none hp hf h) hP

theorem guidDrop_blank (m : Msg) : Doing (Blank (Ps.addrNickname c)) (Core.handleGuidDropNickname c m) := by
  have hb : ∀ l, None (Ps.addrNickname c) l → Blank (Ps.addrNickname c) l := fun _ h => h.blank
  unfold Core.handleGuidDropNickname
  refine .whenM None.nil.blank fun _ => .seq Blank.append (read_only (nickPlace c) hb (A := [.guid, .tm .guidDrop]) (.whenM fun _ =>
    .bind (.one (a := .guid) (by decide) fun w => ⟨_, rfl⟩) fun _ => .timerStart _ (by decide)) rfl) fun _ =>
    .seq Blank.append (read_only (nickPlace c) hb (A := []) (.timerRunning _) rfl) fun _ => .ite (fun _ =>
    read_only (nickPlace c) hb (A := [.guid]) (.one (a := .guid) (by decide) fun w => ⟨_, rfl⟩) rfl) fun _ =>
    .seq Blank.append (read_only (nickPlace c) hb (A := []) ?_ rfl) fun _ =>
    .seq Blank.append (read_only (nickPlace c) hb (A := [.guid]) (.whenM fun _ => .one (a := .guid) (by decide) fun w => ⟨_, rfl⟩) rfl) fun _ =>
    .seq Blank.append (read_only (nickPlace c) hb (A := []) .get rfl) fun _ => .whenM None.nil.blank fun _ =>
    .seq Blank.append (read_only (nickPlace c) hb (A := [.tm .guidDrop]) (.timerStop (by decide)) rfl) fun _ =>
    .seq Blank.append (read_only (nickPlace c) hb (A := [.guid]) (.one (a := .guid) (by decide) fun w => ⟨_, rfl⟩) rfl) fun _ => .ite (fun _ => ?_) fun _ => ?_
  · unfold Core.guidPartEqual
    exact .bind (.guidRead _) fun _ => .bind (.guidRead _) fun _ => .bind (.guidRead _) fun _ => .bind (.guidRead _)
      fun _ => .pure _
  · unfold Core.startNodeSegmentInit
    exact .seq Blank.append (read_only (nickPlace c) hb (A := []) .get rfl) fun _ => .whenM None.nil.blank fun _ => init_blank _
  · exact .seq Blank.append nick_blank fun _ => read_only (nickPlace c) hb (A := [.st .reset, .sec, .tm .main]) (.changeToStateReset (by decide)) rfl

theorem drop_last (m : Msg) : Doing (Last (Ps.addrNickname c)) (Core.handleDropNicknameId c m) := by
  have hb : ∀ l, None (Ps.addrNickname c) l → Blank (Ps.addrNickname c) l := fun _ h => h.blank
  have hn : ∀ t, Doing (None (Ps.addrNickname c)) (Core.changeToStateReset t) := fun t =>
    .none (nickPlace c) (A := [.st .reset, .sec, .tm .main]) (.changeToStateReset (by decide)) rfl
  have hr : Doing (Blank (Ps.addrNickname c)) (Core.restoreFactoryDefaultSettings c) :=
    .blank (nickPlace c) (A := [.restore]) (.one (a := .restore) (by decide) fun _ => rfl) rfl
  have h0 : Last (Ps.addrNickname c) [] := None.nil.blank.last
  unfold Core.handleDropNicknameId
  refine .seq Blank.before (read_only (nickPlace c) hb (A := []) .get rfl) fun w => .whenM h0 fun _ => .ite (fun _ => ?_) fun _ => .ite (fun _ => ?_) fun _ => .pure h0 _
  · exact .seq Last.behind (nick_last _) fun _ => hn _
  · by_cases h : m.data[1] &&& 0x20 ≠ 0
    · rw [if_pos h]
      refine .seq Last.behind (.whenM h0 fun _ => .seq Blank.before hr fun _ => .whenM h0 fun _ => nick_last _) fun _ => hn _
    · rw [if_neg h]
      refine .seq Blank.before (.whenM None.nil.blank fun _ => .seq Blank.append hr fun _ => .whenM None.nil.blank fun h' => absurd h' h) fun _ => .ite (fun _ => ?_) fun _ => ?_
      · exact .seq Last.behind (nick_last _) fun _ => .none (nickPlace c) (A := [.st .idle, .idleEntered]) (.changeToStateIdle (by decide)) rfl
      · exact .seq Last.behind (nick_last _) fun _ => hn _

theorem heartbeat_blank (m : Msg) : Doing (Blank (Ps.addrNickname c)) (Core.handleHeartbeat c m) := by
  have hb : ∀ l, None (Ps.addrNickname c) l → Blank (Ps.addrNickname c) l := fun _ h => h.blank
  unfold Core.handleHeartbeat
  exact .whenM None.nil.blank fun _ => .seq Blank.append (read_only (nickPlace c) hb (A := []) (.psRead8 _) rfl) fun _ => .seq Blank.append
    (.whenM None.nil.blank fun _ => .seq Blank.append (read_only (nickPlace c) hb (A := [.seg]) (.one (a := .seg) (by decide) fun w => ⟨_, rfl⟩) rfl) fun _ =>
      .seq Blank.append (read_only (nickPlace c) hb (A := []) .get rfl) fun _ => .whenM None.nil.blank fun _ => init_blank _) fun _ =>
    read_only (nickPlace c) hb (A := [.epochSet, .timeUpdate]) (.whenM fun _ => .bind (.one (a := .epochSet) (by decide) fun w => ⟨_, rfl⟩) fun _ =>
      .whenM fun _ => .one (a := .timeUpdate) (by decide) fun w => ⟨_, rfl⟩) rfl

end

/-- The nickname while a protocol event is dealt with. -/
theorem handler_nick (c : Ctx) (m : Msg) : Doing (Last (Ps.addrNickname c)) (Core.handleProtocolClassType c m) := by
  by_cases h1 : m.typ = 1
  · rw [handler1 h1]; exact .mono (.whenM None.nil.blank fun _ => heartbeat_blank m) fun _ h => h.last
  by_cases h3 : m.typ = 3
  · rw [handler3 h3]
    unfold Core.handleProbeAck
    exact .mono (.seq Blank.append (read_only (nickPlace c) (fun _ h => h.blank) (A := []) .get rfl) fun w => .whenM None.nil.blank fun _ => init_blank _)
      fun _ h => h.last
  by_cases h6 : m.typ = 6
  · rw [handler6 h6]
    unfold Core.handleSetNicknameId
    exact .seq Blank.before (read_only (nickPlace c) (fun _ h => h.blank) (A := []) .get rfl) fun w => .whenM None.nil.blank.last fun _ =>
      .seq Last.behind (nick_last _) fun _ => .none (nickPlace c) (A := [.tx]) (.txVoid (.inl (by simp)) (by decide)) rfl
  by_cases h8 : m.typ = 8
  · rw [handler8 h8]; exact drop_last m
  by_cases h23 : m.typ = 23
  · rw [handler23 h23]; exact .mono (guidDrop_blank m) fun _ h => h.last
  refine .mono (.blank (nickPlace c) handler_foot ?_) fun _ h => h.last
  unfold Wear.typeActs
  rw [if_neg h1, if_neg h3, if_neg h6, if_neg h8, if_neg h23]
  split
  · rfl
  split <;> rfl

/-- The CRC of the segment while a protocol event is dealt with. -/
theorem handler_seg (c : Ctx) (m : Msg) : Doing (Last (Ps.addrSegCrc c)) (Core.handleProtocolClassType c m) := by
  have h0 : Last (Ps.addrSegCrc c) [] := None.nil.blank.last
  by_cases h1 : m.typ = 1
  · rw [handler1 h1]
    refine .whenM h0 fun _ => ?_
    unfold Core.handleHeartbeat
    refine .whenM h0 fun _ => .seq Blank.before (read_only (segPlace c) (fun _ h => h.blank) (A := []) (.psRead8 _) rfl) fun _ => .seq Last.behind
      (.whenM h0 fun _ => .seq Last.behind (fun w => ⟨[.psW (Ps.addrSegCrc c) m.data[0]], rfl, Last.one _ _⟩) fun _ =>
        .none (segPlace c) (A := [.st .init, .ist, .nick]) (.bind .get fun _ => .whenM fun _ => .changeToStateInit (by decide)) rfl) fun _ =>
      .none (segPlace c) (A := [.epochSet, .timeUpdate]) (.whenM fun _ => .bind (.one (a := .epochSet) (by decide) fun w => ⟨_, rfl⟩) fun _ =>
        .whenM fun _ => .one (a := .timeUpdate) (by decide) fun w => ⟨_, rfl⟩) rfl
  refine .mono (.blank (segPlace c) handler_foot ?_) fun _ h => h.last
  unfold Wear.typeActs
  rw [if_neg h1]
  repeat' (first | rfl | split)

/-- A call, provided that the events are dealt with like this. -/
theorem op_last {c : Ctx} {L : Nat} {free : Act → Bool} (hp : Place c L free) (hf : ∀ a, a ≠ .nick → a ≠ .seg → a ≠ .restore → free a = true)
    (hh : ∀ m, Doing (Last L) (Core.handleProtocolClassType c m)) (op : Op) (w : W) : Last L (stored w (stepOp c op w).2) := by
  by_cases hpr : ∃ rx, op = .process rx
  · obtain ⟨rx, rfl⟩ := hpr
    by_cases ha : w.v.st = .active
    · by_cases ht : ∃ m, m.cls = 0 ∧ Takes c rx w m
      · obtain ⟨m, hm, ht⟩ := ht
        obtain ⟨w1, t, ho, -, e, -⟩ := takes_stored ht hm
        obtain ⟨t', ho', hl⟩ := hh m w1
        have e' : (stepOp c (.process rx) w).2 = (Core.process c rx w).2 := rfl
        rw [e', e]
        rw [ho'] at ho
        rw [← List.append_cancel_left ho]
        exact hl
      · have e : stored w (stepOp c (.process rx) w).2 = [] := (quiet_cycle ha fun m h hm => absurd ⟨m, hm, h⟩ ht).1
        rw [e]
        exact None.nil.blank.last
    · rcases C95_inactive (c := c) (rx := rx) ha with e | ⟨e, -⟩
      · rw [e]; exact None.nil.blank.last
      · rw [e]; exact Last.one _ _
  · have hpr : ∀ rx, op ≠ .process rx := fun rx h => hpr ⟨rx, h⟩
    by_cases hs : op = .startNodeSegmentInit
    · subst hs
      rw [C95_start]
      split
      · exact None.nil.blank.last
      · exact Last.one _ _
    · obtain ⟨t, h1, h2⟩ := steps_blank hp (op_steps c op hpr w) (List.all_eq_true.mpr fun a ha => by
        by_cases hr : a = .restore
        · rw [hr]; simp
        · rw [hf a ?_ ?_ hr, Bool.true_or]
          · rintro rfl; cases op <;> first | exact absurd rfl hs | (revert ha; simp [opActs])
          · rintro rfl; cases op <;> (revert ha; simp [opActs]))
      rw [stored_of h1]
      exact h2.last

/-- The memory after a call is what was written to it. -/
theorem op_mem (c : Ctx) (op : Op) (w : W) : (stepOp c op w).2.ps = applyWrites w.ps (stored w (stepOp c op w).2) := by
  have key : ∀ {A : List Act} {w1 w' : W}, Steps c True A w1 w' → ∃ t, w'.out = w1.out ++ t ∧ w'.ps = memAfter w1.ps t := fun hs =>
    hs.rel (R := fun w w' => ∃ t, w'.out = w.out ++ t ∧ w'.ps = memAfter w.ps t) (fun w => ⟨[], by simp, rfl⟩)
      (by rintro w w' w'' ⟨t, h1, h2⟩ ⟨t', h1', h2'⟩
          exact ⟨t ++ t', by rw [h1', h1, List.append_assoc], by rw [h2', h2, memAfter_append]⟩)
      fun a _ w w' hst => Sett.step_mem hst
  have fin : ∀ {t : List Out} {w' : W}, w'.out = w.out ++ t → w'.ps = memAfter w.ps t → w'.ps = applyWrites w.ps (stored w w') := by
    intro t w' h1 h2
    rw [h2, SegmentLoss.memAfter_stored, stored_of h1]
  by_cases hpr : ∃ rx, op = .process rx
  · obtain ⟨rx, rfl⟩ := hpr
    obtain ⟨t, h1, h2⟩ := key (process_state c rx w)
    have hps := pre_same c rx w .ps (by decide)
    simp only [Comp.same] at hps
    rw [pre_out] at h1
    rw [hps] at h2
    exact fin h1 h2
  · obtain ⟨t, h1, h2⟩ := key (op_steps c op (fun rx h => hpr ⟨rx, h⟩) w)
    exact fin h1 h2

/-- C115: whenever the power is lost in a call, the nickname in the memory is the one from before the call, the one from after it, or none. -/
theorem C115_nickname (c : Ctx) (op : Op) (w : W) (k : Nat) :
    let w' := (stepOp c op w).2
    let n := lossMem w w' k (Ps.addrNickname c)
    n = w.ps (Ps.addrNickname c) ∨ n = w'.ps (Ps.addrNickname c) ∨ n = 0xFF := by
  intro w' n
  obtain ⟨j, e⟩ := SegmentLoss.lossMem_stored w w' k
  have h := (op_last (nickPlace c) (by intro a; cases a <;> simp [Act.noNick]) (handler_nick c) op w).take w.ps j
  rw [← op_mem, ← e] at h
  rcases h with h | h | h
  · exact .inl h
  · exact .inr (.inr h)
  · exact .inr (.inl h)

/-- C115: the same holds for the CRC of the segment, where 0xFF is that of the factory settings. -/
theorem C115_segment (c : Ctx) (op : Op) (w : W) (k : Nat) :
    let w' := (stepOp c op w).2
    let n := lossMem w w' k (Ps.addrSegCrc c)
    n = w.ps (Ps.addrSegCrc c) ∨ n = w'.ps (Ps.addrSegCrc c) ∨ n = 0xFF := by
  intro w' n
  obtain ⟨j, e⟩ := SegmentLoss.lossMem_stored w w' k
  have h := (op_last (segPlace c) (by intro a; cases a <;> simp [Act.noSeg]) (handler_seg c) op w).take w.ps j
  rw [← op_mem, ← e] at h
  rcases h with h | h | h
  · exact .inl h
  · exact .inr (.inr h)
  · exact .inr (.inl h)

/-- C115: so a node which loses its power, at any point of its history, and is switched on has the nickname it had, or that it was just given, or none. -/
theorem C115_restart {c : Ctx} (h : GoodCfg c) (ok ok' : Tmr → Bool) (ps : Nat → U8) (ops : List Op) (hops : ∀ op ∈ ops, op.Ok) (op : Op) (hop : op.Ok) (k : Nat) :
    let w := node c ok ps ops
    let w' := node c ok ps (ops ++ [op])
    let r := node c ok' (lossMem w w' k) []
    r.v.nick = w.v.nick ∨ r.v.nick = w'.v.nick ∨ r.v.nick = 0xFF := by
  intro w w' r
  have e : w' = (stepOp c op w).2 := by
    show runOps c (.init ok :: (ops ++ [op])) _ = _
    rw [← List.cons_append, runOps_append]
    rfl
  have s1 := C34_nickname_stored h ok ps ops hops
  have s2 := C34_nickname_stored h ok ps (ops ++ [op]) (fun o ho => (List.mem_append.mp ho).elim (hops o) fun h => by rw [List.mem_singleton.mp h]; exact hop)
  have hr : r.v.nick = lossMem w w' k (Ps.addrNickname c) ∨ r.v.nick = 0xFF := by
    obtain ⟨t, h1, h2⟩ := steps_blank (nickPlace c) (op_steps c (.init ok') (fun _ => Op.noConfusion) (powerUp (lossMem w w' k))) rfl
    have e1 : r.v.nick = r.ps (Ps.addrNickname c) := C34_nickname_stored h ok' _ [] (by simp)
    have e2 : r.ps = applyWrites (lossMem w w' k) (storedIn t) := by
      have := op_mem c (.init ok') (powerUp (lossMem w w' k))
      rw [stored_of h1] at this
      exact this
    rw [e1, e2]
    exact h2.value _
  have := C115_nickname c op w k
  rw [← e] at this
  rcases hr with hr | hr
  · rw [hr, s1, s2]; exact this
  · exact .inr (.inr hr)

/-! ### Concrete cases -/

-- A new nickname; a drop of the nickname with the factory settings which keeps the nickname: in the middle the node has none.
example : let w := node Ex.ctx allOk (mem 0x60) [.process none]
    let at' (op : Op) := (List.range 5).map fun k => lossMem w (stepOp Ex.ctx op w).2 k (Ps.addrNickname Ex.ctx)
    w.v.nick = 5 ∧ at' (.process (some (Ex.msg 0 6 0 [5, 9]))) = [5, 9, 9, 9, 9] ∧
    (at' (.process (some (Ex.msg 0 8 0 [5, 0x60])))) = [5, 0xFF, 0xFF, 0xFF, 0xFF] ∧
    (stepOp Ex.ctx (.process (some (Ex.msg 0 8 0 [5, 0x60]))) w).2.ps (Ps.addrNickname Ex.ctx) = 5 := by
  decide +kernel

-- A drop of the nickname with the factory settings: in the middle the CRC is still the old one.
example : let w := node Ex.ctx allOk (mem 0x60) [.process none]
    let w' := (stepOp Ex.ctx (.process (some (Ex.msg 0 8 0 [5, 0x40]))) w).2
    ((List.range 4).map fun k => lossMem w w' k (Ps.addrSegCrc Ex.ctx)) = [0, 0, 0xFF, 0xFF] ∧
    (Op.process (some (Ex.msg 0 8 0 [5, 0x40]))).Ok := by
  refine ⟨by decide +kernel, by simp [Op.Ok]; decide⟩

end Vscp.NickLoss
