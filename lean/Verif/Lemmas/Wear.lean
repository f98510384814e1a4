/-
The writes to the persistent memory of one call or cycle.
-/
import Verif.Lemmas.OpSteps
import Verif.Spec.Wear
import Verif.Props.Time

namespace Vscp.Wear
open M Spec Transport

section
variable {c : Ctx} {w w' w'' : W} {A : List Act}

theorem storedIn_append (t t' : List Out) : storedIn (t ++ t') = storedIn t ++ storedIn t' := by
  unfold storedIn; rw [List.filterMap_append]

theorem mem_storedIn {t : List Out} {a : Nat} {b : U8} : (a, b) ∈ storedIn t ↔ .psW a b ∈ t := by
  unfold storedIn
  rw [List.mem_filterMap]
  constructor
  · rintro ⟨o, ho, he⟩
    cases o <;> simp only [reduceCtorEq, Option.some.injEq, Prod.mk.injEq] at he
    obtain ⟨rfl, rfl⟩ := he
    exact ho
  · exact fun h => ⟨_, h, rfl⟩

theorem storedIn_nil {t : List Out} (h : ∀ a b, .psW a b ∉ t) : storedIn t = [] := by
  rw [List.eq_nil_iff_forall_not_mem]
  rintro ⟨a, b⟩ hm
  exact h a b (mem_storedIn.mp hm)

theorem stored_of {t : List Out} (h : w'.out = w.out ++ t) : stored w w' = storedIn t := by
  unfold stored
  rw [h, List.drop_left]

theorem factory_of {t : List Out} (h : w'.out = w.out ++ t) : factoryReset w w' ↔ .portRestore ∈ t := by
  unfold factoryReset
  rw [h, List.drop_left]

/-- The step writes nothing to the persistent memory. -/
def _root_.Vscp.Act.dry : Act → Bool
  | .nick | .seg | .flags | .user | .boot | .restore | .dmW | .ngW | .appWrite => false
  | _ => true

theorem dry_emits {a : Act} (h : a.dry = true) {x : Nat} {b : U8} : ¬ a.emits c (.psW x b) := by
  cases a <;> simp [Act.dry] at h <;> simp [Act.emits]

/-- Steps which write nothing. -/
theorem dry_steps {bad : Prop} (hs : Steps c bad A w w') (h : A.all Act.dry = true) :
    ∃ t, w'.out = w.out ++ t ∧ ∀ a b, .psW a b ∉ t := by
  obtain ⟨t, h1, h2⟩ := hs.outs
  refine ⟨t, h1, fun x b hm => ?_⟩
  obtain ⟨a, ha, he⟩ := h2 _ hm
  exact dry_emits (List.all_eq_true.mp h a ha) he

/-- The writes of some steps come from these steps, unless one of them is the factory restore. -/
theorem steps_outs {bad : Prop} (hs : Steps c bad A w w') : ∃ t, w'.out = w.out ++ t ∧
    ((.portRestore ∈ t ∧ .restore ∈ A) ∨ ∀ o ∈ t, ∃ a ∈ A, a ≠ .restore ∧ a.emits c o) := by
  refine hs.rel (R := fun w w' => ∃ t, w'.out = w.out ++ t ∧
    ((.portRestore ∈ t ∧ .restore ∈ A) ∨ ∀ o ∈ t, ∃ a ∈ A, a ≠ .restore ∧ a.emits c o)) ?_ ?_ ?_
  · exact fun w => ⟨[], by simp, .inr (by simp)⟩
  · rintro w w' w'' ⟨t, h1, h2⟩ ⟨t', h1', h2'⟩
    refine ⟨t ++ t', by rw [h1', h1, List.append_assoc], ?_⟩
    rcases h2 with ⟨h2, hr⟩ | h2
    · exact .inl ⟨List.mem_append_left _ h2, hr⟩
    · rcases h2' with ⟨h2', hr⟩ | h2'
      · exact .inl ⟨List.mem_append_right _ h2', hr⟩
      · exact .inr fun o ho => (List.mem_append.mp ho).elim (h2 o) (h2' o)
  · intro a ha w w' hst
    by_cases hr : a = .restore
    · subst hr
      simp only [Step] at hst
      rw [restore_run] at hst
      subst hst
      exact ⟨_, rfl, .inl ⟨by simp, ha⟩⟩
    · obtain ⟨t, h1, h2⟩ := hst.outs
      exact ⟨t, h1, .inr fun o ho => ⟨a, ha, hr, h2 o ho⟩⟩

end

/-- The steps of the handling of a protocol event of the given type. -/
def typeActs (typ : U8) : List Act :=
  if typ = 1 then [.seg, .st .init, .ist, .nick, .epochSet, .timeUpdate]
  else if typ = 3 then [.st .init, .ist, .nick]
  else if typ = 6 then [.nick, .tx]
  else if typ = 8 then [.nick, .restore, .st .reset, .sec, .tm .main, .st .idle, .idleEntered]
  else if typ = 23 then [.guid, .tm .guidDrop, .st .init, .ist, .nick, .st .reset, .sec, .tm .main]
  else if typ = 12 then [.tx, .st .idle, .idleEntered, .boot, .bootReq]
  else if typ = 11 ∨ typ = 25 ∨ typ = 29 ∨ typ = 30 ∨ typ = 38 then .tx :: .ub :: .alarm :: .appRead :: writeActs
  else [.tx, .alarm, .appRead, .ext]

theorem handler_foot {c : Ctx} {m : Msg} : Foot c True (typeActs m.typ) (Core.handleProtocolClassType c m) := by
  by_cases h1 : m.typ = 1
  · rw [handler1 h1, h1]; exact .whenM fun _ => .handleHeartbeat
  by_cases h3 : m.typ = 3
  · rw [handler3 h3, h3]; exact .handleProbeAck
  by_cases h6 : m.typ = 6
  · rw [handler6 h6, h6]; exact .handleSetNicknameId
  by_cases h8 : m.typ = 8
  · rw [handler8 h8, h8]; exact .handleDropNicknameId
  by_cases h23 : m.typ = 23
  · rw [handler23 h23, h23]; exact .handleGuidDropNickname
  by_cases h12 : m.typ = 12
  · rw [handler12 h12, h12]; exact .handleEnterBootLoaderMode
  by_cases h11 : m.typ = 11
  · rw [handler11 h11, h11]; exact .mono .handleWriteRegister (by decide)
  by_cases h25 : m.typ = 25
  · rw [handler25 h25, h25]; exact .mono (.handlePageWrite fun _ => trivial) (by decide)
  by_cases h29 : m.typ = 29
  · rw [handler29 h29, h29]; exact .mono .handleIncrementRegister (by decide)
  by_cases h30 : m.typ = 30
  · rw [handler30 h30, h30]; exact .mono .handleDecrementRegister (by decide)
  by_cases h38 : m.typ = 38
  · rw [handler38 h38, h38]; exact .mono (.handleExtendedPageWriteRegister fun _ => trivial) (by decide)
  have e : typeActs m.typ = [.tx, .alarm, .appRead, .ext] := by
    unfold typeActs
    rw [if_neg h1, if_neg h3, if_neg h6, if_neg h8, if_neg h23, if_neg h12,
      if_neg (fun h => by rcases h with h | h | h | h | h <;> contradiction)]
  rw [e]
  by_cases h2 : m.typ = 2
  · rw [handler2 h2]; exact .mono .handleNewNodeOnline (by decide)
  by_cases h9 : m.typ = 9
  · rw [handler9 h9]; exact .mono .handleReadRegister (by decide)
  by_cases h24 : m.typ = 24
  · rw [handler24 h24]; exact .mono .handlePageRead (by decide)
  by_cases h31 : m.typ = 31
  · rw [handler31 h31]; exact .mono .handleWhoIsThere (by decide)
  by_cases h33 : m.typ = 33
  · rw [handler33 h33]; exact .mono .handleGetDecisionMatrixInfo (by decide)
  by_cases h37 : m.typ = 37
  · rw [handler37 h37]; exact .mono .handleExtendedPageReadRegister (by decide)
  rw [handlerOther]
  · exact .pure _
  · intro h
    simp only [List.mem_cons, List.not_mem_nil, or_false] at h
    rcases h with h | h | h | h | h | h | h | h | h | h | h | h | h | h | h | h | h
    · exact h1 (ofToNat h rfl)
    · exact h2 (ofToNat h rfl)
    · exact h3 (ofToNat h rfl)
    · exact h6 (ofToNat h rfl)
    · exact h8 (ofToNat h rfl)
    · exact h9 (ofToNat h rfl)
    · exact h11 (ofToNat h rfl)
    · exact h12 (ofToNat h rfl)
    · exact h23 (ofToNat h rfl)
    · exact h24 (ofToNat h rfl)
    · exact h25 (ofToNat h rfl)
    · exact h29 (ofToNat h rfl)
    · exact h30 (ofToNat h rfl)
    · exact h31 (ofToNat h rfl)
    · exact h33 (ofToNat h rfl)
    · exact h37 (ofToNat h rfl)
    · exact h38 (ofToNat h rfl)

/-- The steps which write something do it at the place the event is about. -/
theorem typeActs_target {c : Ctx} {typ : U8} {a : Act} (ha : a ∈ typeActs typ) (hr : a ≠ .restore) {x : Nat} {b : U8}
    (he : a.emits c (.psW x b)) : target c typ x := by
  unfold typeActs at ha
  unfold target
  split at ha
  · rename_i h; subst h
    simp only [List.mem_cons, List.not_mem_nil, or_false] at ha
    rcases ha with rfl | rfl | rfl | rfl | rfl | rfl <;> simp [Act.emits] at he <;> simp [he]
  split at ha
  · rename_i h; subst h
    simp only [List.mem_cons, List.not_mem_nil, or_false] at ha
    rcases ha with rfl | rfl | rfl <;> simp [Act.emits] at he <;> simp [he]
  split at ha
  · rename_i h; subst h
    simp only [List.mem_cons, List.not_mem_nil, or_false] at ha
    rcases ha with rfl | rfl <;> simp [Act.emits] at he <;> simp [he]
  split at ha
  · rename_i h; subst h
    simp only [List.mem_cons, List.not_mem_nil, or_false] at ha
    rcases ha with rfl | rfl | rfl | rfl | rfl | rfl | rfl <;> first | exact absurd rfl hr | (simp [Act.emits] at he; try simp [he])
  split at ha
  · rename_i h; subst h
    simp only [List.mem_cons, List.not_mem_nil, or_false] at ha
    rcases ha with rfl | rfl | rfl | rfl | rfl | rfl | rfl | rfl <;> simp [Act.emits] at he <;> simp [he]
  split at ha
  · rename_i h; subst h
    simp only [List.mem_cons, List.not_mem_nil, or_false] at ha
    rcases ha with rfl | rfl | rfl | rfl | rfl <;> simp [Act.emits] at he <;> simp [he]
  split at ha
  · rename_i h
    have key : x = Ps.addrFlags c ∨ (Ps.addrUserId c ≤ x ∧ x < Ps.addrUserId c + 5) ∨ (c.zonePs = true ∧ x = Ps.addrZone c) ∨
        (c.subZonePs = true ∧ x = Ps.addrSubZone c) ∨ (Ps.addrDm c ≤ x ∧ x < Ps.addrDm c + Ps.sizeDm c) ∨
        (Ps.addrDmNg c ≤ x ∧ x < Ps.addrDmNg c + Ps.sizeDmNg c) := by
      simp only [writeActs, List.mem_cons, List.not_mem_nil, or_false] at ha
      rcases ha with rfl | rfl | rfl | rfl | rfl | rfl | rfl | rfl | rfl | rfl | rfl | rfl | rfl <;>
        first | exact absurd rfl hr | skip
      all_goals simp only [Act.emits, reduceCtorEq, exists_const, Out.psW.injEq, false_or] at he
      · obtain ⟨b', h, -⟩ := he; exact .inl h
      · obtain ⟨i, b', h, rfl, -⟩ := he; exact .inr (.inl ⟨by omega, by omega⟩)
      · obtain ⟨i, b', h, rfl, -⟩ := he; exact .inr (.inr (.inr (.inr (.inl ⟨by omega, by omega⟩))))
      · obtain ⟨i, b', h, rfl, -⟩ := he; exact .inr (.inr (.inr (.inr (.inr ⟨by omega, by omega⟩))))
      · obtain ⟨a', b', h, rfl, -⟩ := he
        exact .inr (.inr (h.elim .inl fun h => .inr (.inl h)))
    rcases h with rfl | rfl | rfl | rfl | rfl <;> simpa using key
  · simp only [List.mem_cons, List.not_mem_nil, or_false] at ha
    rcases ha with rfl | rfl | rfl | rfl <;> simp [Act.emits] at he

theorem typeActs_restore {typ : U8} (h : Act.restore ∈ typeActs typ) : typ ∈ ([8, 11, 25, 29, 30, 38] : List U8) := by
  unfold typeActs at h
  repeat' split at h
  all_goals first
    | (rename_i h'; subst h'; revert h; decide)
    | (rename_i h'; rcases h' with h' | h' | h' | h' | h' <;> (subst h'; decide))
    | exact absurd h (by decide)

/-- The steps of the handling of an event which does not ask to store something. -/
def dryActs : List Act := [.tx, .alarm, .appRead, .ext, .epochSet, .timeUpdate, .guid, .tm .guidDrop]

theorem dry_handler {c : Ctx} {m : Msg} {w : W} (h : ¬ Asks c w m) :
    Steps c True dryActs w (Core.handleProtocolClassType c m w).2 := by
  have p0 : ∀ x, 0 < m.size.toNat → m.data[0] = x → (payload m)[0]? = some x := fun x hs hd => by
    rw [payload_get' hs (by decide), hd]
  by_cases h1 : m.typ = 1
  · rw [handler1 h1, whenM_run]
    split
    · rename_i hseg
      unfold Core.handleHeartbeat
      rw [whenM_run]
      split
      · rename_i hsz
        have hc : w.ps (Ps.addrSegCrc c) = m.data[0] := by
          by_cases hc : w.ps (Ps.addrSegCrc c) = m.data[0]
          · exact hc
          · refine absurd (.inl ⟨h1, hseg, hsz, ?_⟩) h
            rw [p0 _ hsz rfl]
            exact fun e => hc (Option.some.inj e).symm
        unfold Ps.readSegCrc
        have e : ∀ (X : M Unit), whenM (w.ps (Ps.addrSegCrc c) ≠ m.data[0]) X w = ((), w) := fun X => by
          rw [whenM_run, if_neg (fun hn => hn hc)]
        rw [bind_run, psRead8_run]
        dsimp only
        rw [bind_run, e]
        exact Foot.whenM (A := dryActs) (fun _ => .bind (.one (a := .epochSet) (by decide) fun w => ⟨_, rfl⟩) fun _ => .whenM fun _ =>
          .one (a := .timeUpdate) (by decide) fun w => ⟨_, rfl⟩) w
      · exact .refl _
    · exact .refl _
  by_cases h3 : m.typ = 3
  · rw [handler3 h3, Core.handleProbeAck, bind_run, get_run, whenM_run, if_neg]
    · exact .refl _
    · exact fun hh => h (.inr (.inl ⟨h3, hh.2.symm, hh.1⟩))
  have ask : ∀ typ, m.typ = typ → typ ∈ ([6, 8, 11, 12, 25, 29, 30, 38] : List U8) → 0 < m.size.toNat → w.v.nick = m.data[0] → False :=
    fun typ e ht hs hd => h (.inr (.inr (.inl ⟨e ▸ ht, p0 _ hs hd.symm⟩)))
  by_cases h6 : m.typ = 6
  · rw [handler6 h6, Core.handleSetNicknameId, bind_run, get_run, whenM_run, if_neg]
    · exact .refl _
    · exact fun hh => ask 6 h6 (by decide) (by rw [hh.1]; decide) hh.2.1
  by_cases h8 : m.typ = 8
  · rw [handler8 h8, Core.handleDropNicknameId, bind_run, get_run, whenM_run, if_neg]
    · exact .refl _
    · exact fun hh => ask 8 h8 (by decide) hh.1 hh.2
  by_cases h12 : m.typ = 12
  · rw [handler12 h12, Core.handleEnterBootLoaderMode, bind_run, get_run, whenM_run, if_neg]
    · exact .refl _
    · exact fun hh => ask 12 h12 (by decide) (by rw [hh.1]; decide) hh.2
  by_cases h11 : m.typ = 11
  · rw [handler11 h11, Core.handleWriteRegister, bind_run, get_run, whenM_run, if_neg]
    · exact .refl _
    · exact fun hh => ask 11 h11 (by decide) (by rw [hh.1]; decide) hh.2
  by_cases h25 : m.typ = 25
  · rw [handler25 h25, Core.handlePageWrite, bind_run, get_run, whenM_run, if_neg]
    · exact .refl _
    · exact fun hh => ask 25 h25 (by decide) (by omega) hh.2
  by_cases h29 : m.typ = 29
  · rw [handler29 h29, Core.handleIncrementRegister, bind_run, get_run, whenM_run, if_neg]
    · exact .refl _
    · exact fun hh => ask 29 h29 (by decide) (by rw [hh.1]; decide) hh.2
  by_cases h30 : m.typ = 30
  · rw [handler30 h30, Core.handleDecrementRegister, bind_run, get_run, whenM_run, if_neg]
    · exact .refl _
    · exact fun hh => ask 30 h30 (by decide) (by rw [hh.1]; decide) hh.2
  by_cases h38 : m.typ = 38
  · rw [handler38 h38, Core.handleExtendedPageWriteRegister, bind_run, get_run, whenM_run, if_neg]
    · exact .refl _
    · exact fun hh => ask 38 h38 (by decide) (by omega) hh.2
  by_cases h23 : m.typ = 23
  · rw [handler23 h23]
    unfold Core.handleGuidDropNickname
    refine Foot.whenM (fun hh => .bind (.whenM fun _ => .bind (.one (a := .guid) (by decide) fun w => ⟨_, rfl⟩) fun _ =>
      .timerStart _ (by decide)) fun _ => .bind (.timerRunning _) fun _ => .ite (fun _ =>
      .one (a := .guid) (by decide) fun w => ⟨_, rfl⟩) fun _ => .bind ?_ fun _ => .bind (.whenM fun _ =>
      .one (a := .guid) (by decide) fun w => ⟨_, rfl⟩) fun _ => .bind .get fun _ => .whenM fun h3' => ?_) w
    · unfold Core.guidPartEqual
      exact .bind (.guidRead _) fun _ => .bind (.guidRead _) fun _ => .bind (.guidRead _) fun _ => .bind (.guidRead _)
        fun _ => .pure _
    · exact absurd (.inr (.inr (.inr ⟨h23, p0 _ (by rw [hh.1]; decide) h3'.1⟩))) h
  refine (handler_foot w).mono ?_
  unfold typeActs
  rw [if_neg h1, if_neg h3, if_neg h6, if_neg h8, if_neg h23, if_neg h12,
    if_neg (fun h => by rcases h with h | h | h | h | h <;> contradiction)]
  decide

end Vscp.Wear
