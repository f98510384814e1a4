/-
Property theorems: nickname discovery (C31 - C33).
-/
import Verif.Props.GuidDrop
import Verif.Lemmas.Discovery

namespace Vscp.Discovery
open M Spec Transport Safety

/-! ### How the discovery begins -/

/-- A node which just began to look for a nickname begins with the segment master. -/
def K (w : W) : Prop := w.v.st = .init → w.v.ist = .probeMaster

/-- The step does not begin the discovery. -/
def plain : Act → Bool
  | .st s => s != .init
  | a => !a.touches .st && !a.touches .init

theorem K_steps {c : Ctx} {A : List Act} {w w' : W} (hs : Steps c True A w w') (hA : A.all plain = true) (h : K w) : K w' := by
  refine hs.inv (P := K) (fun a ha w w' hst hK => ?_) h
  have hp := List.all_eq_true.mp hA a ha
  by_cases hs : ∃ s, a = .st s
  · obtain ⟨s, rfl⟩ := hs
    have e : w' = { w with v := { w.v with st := s }, out := w.out ++ lampCalls s } := hst.2
    intro hi
    rw [e] at hi
    have hi : s = .init := hi
    rw [hi] at hp
    simp [plain] at hp
  · have hp' : a.touches .st = false ∧ a.touches .init = false := by
      cases a <;> first | exact absurd ⟨_, rfl⟩ hs | simpa [plain] using hp
    have h1 := hst.same .st hp'.1
    have h2 := hst.same .init hp'.2
    simp only [Comp.same] at h1 h2
    unfold K
    rw [h1, h2.1]
    exact hK

theorem K_changeInit (c : Ctx) (w : W) (h : K w) : K (Core.changeToStateInit c true w).2 := by
  by_cases hi : w.v.st = .init
  · rw [changeInit_same c true w hi]; exact h
  · intro _
    exact (changeInit_run c true w hi).2.1

theorem K_effect (c : Ctx) (w : W) (h : K w) : K (GuidDrop.effect c w).2 := by
  unfold GuidDrop.effect
  rw [bind_run, get_run]
  dsimp only
  rw [ite_run]
  split
  · unfold Core.startNodeSegmentInit
    rw [bind_run, get_run, whenM_run]
    split
    · exact K_changeInit c w h
    · exact h
  · refine K_steps (c := c) (A := [.nick, .st .reset, .sec, .tm .main]) ?_ (by decide) h
    exact Foot.bind (.writeNicknameId (by decide)) (fun _ => .changeToStateReset (by decide)) w

theorem K_guid (c : Ctx) (m : Msg) (w : W) (h : K w) : K (Core.handleGuidDropNickname c m w).2 := by
  by_cases hm : m.size = 5 ∧ m.data[0].toNat < 4
  · rw [GuidDrop.handle_run c m w hm]
    split
    · split
      · exact K_effect c _ h
      · exact h
    · exact h
  · unfold Core.handleGuidDropNickname
    rw [whenM_run, if_neg hm]
    exact h

theorem K_heartbeat (c : Ctx) (m : Msg) (w : W) (h : K w) : K (Core.handleHeartbeat c m w).2 := by
  unfold Core.handleHeartbeat
  rw [whenM_run]
  split
  · rw [bind_run]
    have e : (Ps.readSegCrc c w).2 = w := rfl
    rw [e, bind_run]
    have hf : Foot c True [.epochSet, .timeUpdate] (whenM (5 ≤ m.size.toNat) (do
        setV fun v => { v with epoch := Core.epochOf m }
        whenM c.segTimeCallout (emit (.timeUpdate (Core.epochOf m))))) := by
      refine .whenM fun _ => ?_
      exact .bind (.one (a := .epochSet) (by decide) fun w => ⟨_, rfl⟩) fun _ => .whenM fun _ =>
        .one (a := .timeUpdate) (by decide) fun w => ⟨_, rfl⟩
    refine K_steps (hf _) (by decide) ?_
    · rw [whenM_run]
      split
      · rw [bind_run, bind_run, get_run, whenM_run]
        have hk : K (Ps.writeSegCrc c m.data[0] w).2 := h
        split
        · exact K_changeInit c _ hk
        · exact hk
      · exact h
  · exact h

theorem K_probeAck (c : Ctx) (m : Msg) (w : W) (h : K w) : K (Core.handleProbeAck c m w).2 := by
  unfold Core.handleProbeAck
  rw [bind_run, get_run, whenM_run]
  split
  · exact K_changeInit c w h
  · exact h

theorem otherType {c : Ctx} {m : Msg} (h1 : m.typ.toNat ≠ 1) (h3 : m.typ.toNat ≠ 3) (h23 : m.typ.toNat ≠ 23) :
    Foot c True (protoActs.filter (fun a => a ≠ .ist ∧ a ≠ .st .init)) (Core.handleProtocolClassType c m) := by
  unfold Core.handleProtocolClassType
  split
  · rename_i e; exact absurd e h1
  · exact .mono .handleNewNodeOnline (by decide)
  · rename_i e; exact absurd e h3
  · exact .mono .handleSetNicknameId (by decide)
  · exact .mono .handleDropNicknameId (by decide)
  · exact .mono .handleReadRegister (by decide)
  · exact .mono .handleWriteRegister (by decide)
  · exact .mono .handleEnterBootLoaderMode (by decide)
  · rename_i e; exact absurd e h23
  · exact .mono .handlePageRead (by decide)
  · exact .mono (.handlePageWrite (fun _ => trivial)) (by decide)
  · exact .mono .handleIncrementRegister (by decide)
  · exact .mono .handleDecrementRegister (by decide)
  · exact .mono .handleWhoIsThere (by decide)
  · exact .mono .handleGetDecisionMatrixInfo (by decide)
  · exact .mono .handleExtendedPageReadRegister (by decide)
  · exact .mono (.handleExtendedPageWriteRegister (fun _ => trivial)) (by decide)
  · exact .pure _

theorem K_handler (c : Ctx) (m : Msg) (w : W) (h : K w) : K (Core.handleProtocolClassType c m w).2 := by
  by_cases h1 : m.typ.toNat = 1
  · rw [handler1 (ofToNat h1 rfl), whenM_run]
    split
    · exact K_heartbeat c m w h
    · exact h
  · by_cases h3 : m.typ.toNat = 3
    · rw [handler3 (ofToNat h3 rfl)]; exact K_probeAck c m w h
    · by_cases h23 : m.typ.toNat = 23
      · rw [handler23 (ofToNat h23 rfl)]; exact K_guid c m w h
      · exact K_steps (otherType h1 h3 h23 w) (by decide) h

/-- A cycle of a node which is neither looking for a nickname nor pre-active. -/
theorem K_cycle (c : Ctx) (rx : Option Msg) (w : W) (h1 : w.v.st ≠ .init) (h2 : w.v.st ≠ .preActive) : K (Core.process c rx w).2 := by
  have hk : ∀ w1 : W, w1.v.st = w.v.st → K w1 := fun w1 e hi => absurd (e.symm.trans hi) h1
  cases hst : w.v.st with
  | init => exact absurd hst h1
  | preActive => exact absurd hst h2
  | active =>
    by_cases hex : ∃ m, m.cls = 0 ∧ Takes c rx w m
    · obtain ⟨m, hm, htk⟩ := hex
      obtain ⟨w1, t1, -, -, hs, htail⟩ := takes_cycle htk hm
      exact K_steps htail.steps (by decide) (K_handler c m w1 (hk w1 (hs .st (by decide))))
    · obtain ⟨w1, t1, -, -, hs, htail⟩ := other_cycle (c := c) (rx := rx) hst (fun m hm htk => hex ⟨m, hm, htk⟩)
      exact K_steps htail.steps (by decide) (hk w1 (hs .st (by decide)))
  | startup =>
    rw [process_startup hst]
    have hw := hk _ (pre_same c rx w .st (by decide))
    generalize (preProcess c rx w).2 = w1 at *
    unfold Core.stateStartup
    rw [bind_run, get_run]
    dsimp only
    rw [ite_run]
    split
    · rw [ite_run]
      split
      · cases (readMessage c rx w).1 with
        | none => exact hw
        | some m =>
          dsimp only
          rw [whenM_run]
          split
          · exact K_guid c m w1 hw
          · exact hw
      · rw [bind_run]
        have e : (Core.getStartUpControl c w1).2 = w1 := rfl
        rw [e, whenM_run]
        split
        · exact K_changeInit c w1 hw
        · exact hw
    · exact K_steps (Foot.changeToStateActive (c := c) (A := [.st .active, .tx, .tm .heartbeat]) (by decide) w1) (by decide) hw
  | reset =>
    rw [process_reset hst]
    exact K_steps (Foot.stateReset (c := c) _) (by decide) (hk _ (pre_same c rx w .st (by decide)))
  | idle => rw [process_idle (.inl hst)]; exact hk _ (pre_same c rx w .st (by decide))
  | error => rw [process_idle (.inr hst)]; exact hk _ (pre_same c rx w .st (by decide))

/-! ### Histories -/

theorem probed_append (c : Ctx) (w : W) (l l' : List Op) : probed c w (l ++ l') = probed c w l ++ probed c (runOps c l w) l' := by
  induction l generalizing w with
  | nil => rfl
  | cons op l ih => cases op <;> simp [probed, runOps, ih]

theorem probed_other (c : Ctx) (w : W) (op : Op) (h : ∀ rx, op ≠ .process rx) : probed c w [op] = [] := by
  cases op <;> first | rfl | exact absurd rfl (h _)

theorem probed_process (c : Ctx) (w : W) (rx : Option Msg) :
    probed c w [.process rx] = probesOf ((Core.process c rx w).2.out.drop w.out.length) := List.append_nil _

theorem acked_left {c : Ctx} {w : W} {l : List Op} {q : U8} (h : Acked c w l q) (l' : List Op) : Acked c w (l ++ l') q := by
  obtain ⟨pre, rx, post, m, e, h1, h2⟩ := h
  exact ⟨pre, rx, post ++ l', m, by rw [e]; simp, h1, h2⟩

theorem acked_last {c : Ctx} {w : W} {l : List Op} {rx : Option Msg} {m : Msg} {q : U8}
    (h1 : (readMessage c rx (runOps c l w)).1 = some m) (h2 : ackFrom m q) : Acked c w (l ++ [.process rx]) q :=
  ⟨l, rx, [], m, rfl, h1, h2⟩

theorem acked_right {c : Ctx} {w : W} {l l' : List Op} {q : U8} (h : Acked c (runOps c l w) l' q) : Acked c w (l ++ l') q := by
  obtain ⟨pre, rx, post, m, e, h1, h2⟩ := h
  exact ⟨l ++ pre, rx, post, m, by rw [e]; simp, by rw [runOps_append]; exact h1, h2⟩

theorem acked_snoc {c : Ctx} {w : W} {l : List Op} {op : Op} {q : U8} (h : Acked c w (l ++ [op]) q) :
    Acked c w l q ∨ ∃ rx m, op = .process rx ∧ (readMessage c rx (runOps c l w)).1 = some m ∧ ackFrom m q := by
  obtain ⟨pre, rx, post, m, e, h1, h2⟩ := h
  rcases List.eq_nil_or_concat post with rfl | ⟨post', op', rfl⟩
  · have := List.append_inj' e rfl
    obtain ⟨rfl, h4⟩ := this
    simp only [List.cons.injEq, and_true] at h4
    exact .inr ⟨rx, m, h4, h1, h2⟩
  · rw [List.concat_eq_append, ← List.cons_append, ← List.append_assoc] at e
    have := List.append_inj' e rfl
    exact .inl ⟨pre, rx, post', m, this.1, h1, h2⟩

theorem nicknames_succ (s p : U8) (h : s.toNat ≤ p.toNat) :
    nicknames s (p.toNat + 1 - s.toNat) = nicknames s (p.toNat - s.toNat) ++ [p] := by
  have e : p.toNat + 1 - s.toNat = (p.toNat - s.toNat) + 1 := by omega
  rw [e]
  unfold nicknames
  rw [List.range_succ, List.map_append]
  congr 1
  simp only [List.map_cons, List.map_nil, List.cons.injEq, and_true]
  apply BitVec.eq_of_toNat_eq
  have := p.isLt
  simp only [BitVec.toNat_add, BitVec.toNat_ofNat]
  omega

theorem scanned_snoc {c : Ctx} {w : W} {mid : List Op} {n : Nat} (h : Scanned c w mid n) (op : Op)
    (hp : probed c (runOps c mid w) [op] = []) : Scanned c w (mid ++ [op]) n :=
  ⟨h.1, by rw [probed_append, hp, List.append_nil, h.2], fun q h1 h2 => acked_left (h.3 q h1 h2) _⟩

/-- What is known about a node looking for a nickname. -/
def Search (c : Ctx) (w0 : W) (ops : List Op) (d : Disc) : Prop :=
  d.ok = true ∧ (d.st = .init →
    (d.ist = .probe → ∃ pre mid, ops = pre ++ mid ∧ Scanned c (runOps c pre w0) mid d.probe.toNat) ∧
    (d.ist = .probeWait → d.probe ≠ 0xFF ∧ ∃ e, FoundFree c w0 ops d.probe e ∧ c.probeAckTimeout.toNat ≤ d.rem.toNat + e))

theorem foundFree_snoc {c : Ctx} {w : W} {ops : List Op} {p : U8} {e : Nat} (h : FoundFree c w ops p e) (op : Op)
    (hi : ∀ ok, op ≠ .init ok) (hp : probed c (runOps c ops w) [op] = [])
    (ha : ∀ rx m, op = .process rx → (readMessage c rx (runOps c ops w)).1 = some m → ¬ackFrom m p) :
    FoundFree c w (ops ++ [op]) p (e + elapsed [op]) := by
  obtain ⟨pre, mid, rx, post, e1, h1, h2, h3, h4, h5, h6⟩ := h
  have er : runOps c ops w = runOps c post (runOps c (pre ++ mid ++ [.process rx]) w) := by
    rw [e1, ← runOps_append]; simp
  rw [er] at hp ha
  refine ⟨pre, mid, rx, post ++ [op], by rw [e1]; simp, h1, h2, ?_, ?_, ?_, ?_⟩
  · rw [probed_append, h3, hp]; rfl
  · intro ok hm
    rcases List.mem_append.mp hm with hm | hm
    · exact h4 ok hm
    · simp only [List.mem_singleton] at hm
      exact hi ok hm.symm
  · intro hk
    rcases acked_snoc hk with hk | ⟨rx', m, rfl, hr, hm⟩
    · exact h5 hk
    · exact ha rx' m rfl hr hm
  · rw [elapsed_append]; omega

theorem init_st (c : Ctx) (ok : Tmr → Bool) (w : W) : (Core.init c ok w).2.v.st = .startup ∨ (Core.init c ok w).2.v.st = .error := by
  obtain ⟨w1, hi, hs⟩ := init_steps c ok w
  obtain ⟨r, hv⟩ := hi.v
  have h0 : w1.v.st = .startup ∨ w1.v.st = .error := by rw [hv]; simp
  refine hs.inv (P := fun w => w.v.st = .startup ∨ w.v.st = .error) (fun a ha w w' hst h => ?_) h0
  simp only [List.mem_cons, List.not_mem_nil, or_false] at ha
  rcases ha with rfl | rfl | rfl
  · rw [show w'.v.st = w.v.st from hst.same .st rfl]; exact h
  · obtain ⟨-, rfl⟩ := hst
    exact .inr rfl
  · rw [show w'.v.st = w.v.st from hst.same .st rfl]; exact h

theorem init_not_init (c : Ctx) (ok : Tmr → Bool) (w : W) : (Core.init c ok w).2.v.st ≠ .init := by
  rcases init_st c ok w with h | h <;> rw [h] <;> decide

theorem op_look (c : Ctx) (op : Op) (w : W) (hp : ∀ rx, op ≠ .process rx) :
    (¬looking (stepOp c op w).2 ∨ ((stepOp c op w).2.v.ist = .probeMaster ∧ op = .startNodeSegmentInit)) ∨
     ((∀ ok, op ≠ .init ok) ∧ (stepOp c op w).2.v.st = w.v.st ∧ (stepOp c op w).2.v.ist = w.v.ist ∧ (stepOp c op w).2.v.probe = w.v.probe ∧
       ((stepOp c op w).2.tm.rem .main).toNat = (w.tm.rem .main).toNat - elapsed [op]) := by
  by_cases hin : ∃ ok, op = .init ok
  · obtain ⟨ok, rfl⟩ := hin
    refine .inl (.inl ?_)
    show ¬looking (Core.init c ok w).2
    rcases init_st c ok w with h | h <;>
    · unfold looking
      rw [h]
      simp
  · have hin : ∀ ok, op ≠ .init ok := fun ok e => hin ⟨ok, e⟩
    by_cases hsn : op = .startNodeSegmentInit
    · subst hsn
      by_cases hst : w.v.st = .init
      · right
        have e : (stepOp c .startNodeSegmentInit w).2 = w := by
          show (Core.startNodeSegmentInit c w).2 = w
          unfold Core.startNodeSegmentInit
          rw [bind_run, get_run, whenM_run, if_neg (by simpa using hst)]
        rw [e]
        exact ⟨hin, rfl, rfl, rfl, rfl⟩
      · refine .inl (.inr ⟨?_, rfl⟩)
        show (Core.startNodeSegmentInit c w).2.v.ist = _
        unfold Core.startNodeSegmentInit
        rw [bind_run, get_run, whenM_run, if_pos hst]
        exact (changeInit_run c true w hst).2.1
    · right
      refine ⟨hin, ?_⟩
      have h2 := op_same c op hp w .st (by cases op <;> first | exact absurd rfl (hp _) | exact absurd rfl (hin _) | exact absurd rfl hsn | rfl)
      have h3 := op_same c op hp w .init (by cases op <;> first | exact absurd rfl (hp _) | exact absurd rfl (hin _) | exact absurd rfl hsn | rfl)
      refine ⟨h2, h3.1, h3.2, ?_⟩
      by_cases ht : ∃ ms, op = .tick ms
      · obtain ⟨ms, rfl⟩ := ht
        exact tick_rem c ms w .main
      · have h4 := op_same c op hp w (.tm .main) (by
          cases op <;> first | exact absurd rfl (hp _) | exact absurd rfl (hin _) | exact absurd rfl hsn | exact absurd ⟨_, rfl⟩ ht | rfl)
        have h5 : elapsed [op] = 0 := by cases op <;> first | rfl | exact absurd ⟨_, rfl⟩ ht
        rw [h5]
        exact congrArg BitVec.toNat h4

theorem op_disc (c : Ctx) (op : Op) (w : W) (hp : ∀ rx, op ≠ .process rx) (hok : w.tm.ok .main = true)
    (hi : ∀ ok, op = .init ok → ok .main = true) :
    (stepOp c op w).2.tm.ok .main = true ∧
    (((stepOp c op w).2.v.st ≠ .init ∨ (stepOp c op w).2.v.ist = .probeMaster) ∨
     ((∀ ok, op ≠ .init ok) ∧ (stepOp c op w).2.v.st = w.v.st ∧ (stepOp c op w).2.v.ist = w.v.ist ∧ (stepOp c op w).2.v.probe = w.v.probe ∧
       ((stepOp c op w).2.tm.rem .main).toNat = (w.tm.rem .main).toNat - elapsed [op])) := by
  refine ⟨?_, ?_⟩
  · by_cases hin : ∃ ok, op = .init ok
    · obtain ⟨ok, rfl⟩ := hin
      show (Core.init c ok w).2.tm.ok .main = true
      rw [init_ok]; exact hi ok rfl
    · have hin : ∀ ok, op ≠ .init ok := fun ok e => hin ⟨ok, e⟩
      have h1 := op_same c op hp w .ok (by cases op <;> first | exact absurd rfl (hp _) | exact absurd rfl (hin _) | rfl)
      exact (congrFun h1 _).trans hok
  · rcases op_look c op w hp with (h | h) | h
    · exact .inl (.inl fun e => h (.inl e))
    · exact .inl (.inr h.1)
    · exact .inr h

theorem process_ok (c : Ctx) (rx : Option Msg) (w : W) : (Core.process c rx w).2.tm.ok = w.tm.ok := by
  have h := (process_state c rx w).same .ok (by cases w.v.st <;> decide)
  exact h.trans (pre_same c rx w .ok (by decide))

theorem scan_begin (c : Ctx) (w0 : W) (ops : List Op) : ∃ pre mid, ops = pre ++ mid ∧ Scanned c (runOps c pre w0) mid c.startProbe.toNat :=
  ⟨ops, [], by simp, Nat.le_refl _, by simp [probed, nicknames], fun q h1 h2 => by omega⟩

/-- The search of a node. -/
theorem search (c : Ctx) (w0 : W) (h0 : w0.v.st ≠ .init) (h1 : w0.tm.ok .main = true) (ops : List Op)
    (hi : ∀ ok, .init ok ∈ ops → ok .main = true) : Search c w0 ops (disc (runOps c ops w0)) := by
  induction ops using snoc_induction with
  | nil => exact ⟨h1, fun h => absurd h h0⟩
  | snoc ops op ih =>
    have ih := ih fun ok hm => hi ok (List.mem_append_left _ hm)
    have hi := fun ok (h : op = .init ok) => hi ok (List.mem_append_right _ (by simp [h]))
    obtain ⟨w, hw⟩ : ∃ w, w = runOps c ops w0 := ⟨_, rfl⟩
    have er : runOps c (ops ++ [op]) w0 = (stepOp c op w).2 := by rw [runOps_append, hw]; rfl
    rw [er]
    rw [← hw] at ih
    obtain ⟨hok, ih⟩ := ih
    by_cases hp : ∃ rx, op = .process rx
    · obtain ⟨rx, rfl⟩ := hp
      have er2 : (stepOp c (.process rx) w).2 = (Core.process c rx w).2 := rfl
      rw [er2]
      have hok' : (disc (Core.process c rx w).2).ok = true := (congrFun (process_ok c rx w) .main).trans hok
      refine ⟨hok', fun hst => ?_⟩
      by_cases hpre : w.v.st = .preActive
      · rcases cycle_preActive c rx w hpre with ⟨-, -, hd⟩ | ⟨-, ha | ⟨-, hd⟩⟩
        · rw [hd]
          exact ⟨fun _ => scan_begin c w0 _, fun h => (by cases h)⟩
        · rw [(disc_eta _).1, ha] at hst
          cases hst
        · rw [hd] at hst
          exact absurd (hpre.symm.trans hst) (by decide)
      · by_cases hin : w.v.st = .init
        · obtain ⟨ih1, ih2⟩ := ih hin
          cases hist : w.v.ist with
          | probeMaster =>
            rcases cycle_probeMaster c rx w hin hist with ⟨-, -, hd⟩ | ⟨-, -, hd⟩
            · rw [hd]
              exact ⟨fun h => (by rw [(disc_eta _).2.1, hist] at h; cases h), fun h => (by rw [(disc_eta _).2.1, hist] at h; cases h)⟩
            · rw [hd]
              exact ⟨fun h => (by cases h), fun h => (by cases h)⟩
          | probeMasterWait =>
            obtain ⟨-, ⟨-, hd⟩ | ⟨-, hd | hd⟩⟩ := cycle_probeMasterWait c rx w hin hist
            · rw [hd]
              exact ⟨fun _ => scan_begin c w0 _, fun h => (by cases h)⟩
            · rw [hd] at hst
              cases hst
            · rw [hd]
              exact ⟨fun h => (by rw [(disc_eta _).2.1, hist] at h; cases h), fun h => (by rw [(disc_eta _).2.1, hist] at h; cases h)⟩
          | probe =>
            obtain ⟨pre, mid, e, hs⟩ := ih1 hist
            have ew : runOps c mid (runOps c pre w0) = w := by rw [hw, e, runOps_append]
            rcases cycle_probe c rx w hin hist with ⟨-, hpr, hd⟩ | ⟨-, hpr, ⟨-, hd⟩ | ⟨hne, hd⟩⟩
            · rw [hd]
              refine ⟨fun _ => ⟨pre, mid ++ [.process rx], by rw [e]; simp, scanned_snoc hs _ ?_⟩, fun h => (by rw [(disc_eta _).2.1, hist] at h; cases h)⟩
              rw [ew, probed_process]; exact hpr
            · rw [(disc_eta _).1, hd] at hst
              cases hst
            · rw [hd]
              refine ⟨fun h => (by cases h), fun _ => ⟨hne, 0, ⟨pre, mid, rx, [], by rw [e]; simp, hs, ?_, rfl, by simp, ?_, Nat.zero_le _⟩, ?_⟩⟩
              · rw [runOps_append, ew, probed_process]; exact hpr
              · rintro ⟨_, _, _, _, h, -⟩
                simp at h
              · show _ ≤ (if _ then _ else _ : U16).toNat + 0
                rw [if_pos (show w.tm.ok .main = true from hok)]
                omega
          | probeWait =>
            obtain ⟨hne, el, hff, hel⟩ := ih2 hist
            rcases cycle_probeWait c rx w hin hist with ⟨-, ha, -, -⟩ | ⟨-, hout, ⟨⟨m, hm1, hm2⟩, hd⟩ | ⟨hna, hd⟩⟩
            · rw [(disc_eta _).1, ha] at hst
              cases hst
            · rw [hd]
              refine ⟨fun _ => ?_, fun h => (by cases h)⟩
              obtain ⟨pre, mid, rxp, post, e1, hs, h2, h3, -, -, -⟩ := hff
              have hlt : w.v.probe.toNat < 255 := by
                have := w.v.probe.isLt
                have hne : w.v.probe ≠ 0xFF := hne
                have : w.v.probe.toNat ≠ 255 := fun h => hne (BitVec.eq_of_toNat_eq h)
                omega
              have hsucc : (w.v.probe + 1).toNat = w.v.probe.toNat + 1 := by
                rw [BitVec.toNat_add]
                show (_ + 1) % 256 = _
                omega
              have hfirst : c.startProbe.toNat ≤ w.v.probe.toNat := hs.from_first
              refine ⟨pre, mid ++ .process rxp :: post ++ [.process rx], by rw [e1]; simp, ?_⟩
              have ew : runOps c (mid ++ .process rxp :: post) (runOps c pre w0) = w := by rw [hw, e1, ← runOps_append]
              show Scanned c _ _ (w.v.probe + 1).toNat
              rw [hsucc]
              refine ⟨by omega, ?_, fun q hq1 hq2 => ?_⟩
              · have hio : probed c (runOps c pre w0) mid = nicknames c.startProbe (w.v.probe.toNat - c.startProbe.toNat) := hs.in_order
                rw [nicknames_succ _ _ hfirst, ← hio, probed_append, ew, probed_process, hout]
                have e2 : mid ++ .process rxp :: post = mid ++ [.process rxp] ++ post := by simp
                rw [e2, probed_append, probed_append]
                simp only [runOps_append] at h2 h3 ⊢
                rw [h2, h3]
                simp [probesOf, disc]
              · by_cases hq : q = w.v.probe
                · subst hq
                  exact acked_last (by rw [ew]; exact hm1) hm2
                · have : q.toNat ≠ w.v.probe.toNat := fun h => hq (BitVec.eq_of_toNat_eq h)
                  exact acked_left (acked_left (hs.all_taken q hq1 (by show _ < w.v.probe.toNat; omega)) _) _
            · rw [hd]
              refine ⟨fun h => (by rw [(disc_eta _).2.1, hist] at h; cases h), fun _ => ⟨hne, el + 0, ?_, by omega⟩⟩
              refine foundFree_snoc hff (.process rx) (by simp) ?_ ?_
              · rw [← hw, probed_process, hout]; simp [probesOf]
              · rintro rx' m h hm1 hm2
                cases h
                exact hna ⟨m, by rw [hw]; exact hm1, hm2⟩
        · have hk : (Core.process c rx w).2.v.ist = .probeMaster := K_cycle c rx w hin hpre hst
          exact ⟨fun h => (by rw [(disc_eta _).2.1, hk] at h; cases h), fun h => (by rw [(disc_eta _).2.1, hk] at h; cases h)⟩
    · have hp : ∀ rx, op ≠ .process rx := fun rx e => hp ⟨rx, e⟩
      obtain ⟨h2, h3⟩ := op_disc c op w hp hok hi
      refine ⟨h2, fun hst => ?_⟩
      have hst : (stepOp c op w).2.v.st = .init := hst
      rcases h3 with (h3 | h3) | ⟨hni, e1, e2, e3, e4⟩
      · exact absurd hst h3
      · exact ⟨fun h => (by rw [(disc_eta _).2.1, h3] at h; cases h), fun h => (by rw [(disc_eta _).2.1, h3] at h; cases h)⟩
      · obtain ⟨ih1, ih2⟩ := ih (e1.symm.trans hst)
        unfold disc
        dsimp only
        rw [e2, e3]
        refine ⟨fun h => ?_, fun h => ?_⟩
        · obtain ⟨pre, mid, e, hs⟩ := ih1 h
          exact ⟨pre, mid ++ [op], by rw [e]; simp, scanned_snoc hs _ (probed_other c _ op hp)⟩
        · obtain ⟨hne, el, hff, hel⟩ := ih2 h
          refine ⟨hne, el + elapsed [op], foundFree_snoc hff op hni (probed_other c _ op hp) (fun rx m e => absurd e (hp rx)), ?_⟩
          have hel : c.probeAckTimeout.toNat ≤ (w.tm.rem .main).toNat + el := hel
          rw [e4]
          omega

/-! ### C31: only free nicknames are taken -/

/-- A node which assigns itself a nickname has probed exactly this nickname after an ascending scan in which each smaller nickname
was acknowledged, has then waited for the whole probe time-out, and nobody acknowledged the nickname while it waited.
The main timer must exist (else the node is in the error state, C35, and the application forced it out of there). -/
theorem C31_found_free {c : Ctx} (ok : Tmr → Bool) (ps : Nat → U8) (ops : List Op) (rx : Option Msg) (hok : ok .main = true)
    (hi : ∀ ok', .init ok' ∈ ops → ok' .main = true) (hst : (node c ok ps ops).v.st = .init)
    (ha : (node c ok ps (ops ++ [.process rx])).v.st = .active) :
    (node c ok ps (ops ++ [.process rx])).v.nick ≠ 0xFF ∧
    FoundFree c (node c ok ps []) ops (node c ok ps (ops ++ [.process rx])).v.nick c.probeAckTimeout.toNat := by
  have en : ∀ l, node c ok ps l = runOps c l (node c ok ps []) := fun l => rfl
  obtain ⟨w0, hw0⟩ : ∃ w0, w0 = node c ok ps [] := ⟨_, rfl⟩
  have h0 : w0.v.st ≠ .init := by rw [hw0]; exact init_not_init c ok _
  have h1 : w0.tm.ok .main = true := by rw [hw0]; exact (congrFun (init_ok c ok _) .main).trans hok
  rw [en, ← hw0] at hst
  rw [en, ← hw0, runOps_append] at ha ⊢
  have hs := search c w0 h0 h1 ops hi
  generalize runOps c ops w0 = w at *
  have ha : (Core.process c rx w).2.v.st = .active := ha
  show (Core.process c rx w).2.v.nick ≠ _ ∧ FoundFree c w0 ops (Core.process c rx w).2.v.nick _
  obtain ⟨hok, hs⟩ := hs
  have hok : w.tm.ok .main = true := hok
  obtain ⟨-, hs⟩ := hs hst
  cases hist : w.v.ist with
  | probeMaster =>
    rcases cycle_probeMaster c rx w hst hist with ⟨-, -, hd⟩ | ⟨-, -, hd⟩ <;>
    · have := congrArg Disc.st hd
      exact absurd (ha.symm.trans (this.trans hst)) (by decide)
  | probeMasterWait =>
    obtain ⟨-, ⟨-, hd⟩ | ⟨-, hd | hd⟩⟩ := cycle_probeMasterWait c rx w hst hist
    · have := congrArg Disc.st hd
      exact absurd (ha.symm.trans (this.trans hst)) (by decide)
    · have := congrArg Disc.st hd
      exact absurd (ha.symm.trans this) (by simp)
    · have := congrArg Disc.st hd
      exact absurd (ha.symm.trans (this.trans hst)) (by decide)
  | probe =>
    rcases cycle_probe c rx w hst hist with ⟨-, -, hd⟩ | ⟨-, -, ⟨-, hd⟩ | ⟨-, hd⟩⟩
    · have := congrArg Disc.st hd
      exact absurd (ha.symm.trans (this.trans hst)) (by decide)
    · exact absurd (ha.symm.trans hd) (by decide)
    · have := congrArg Disc.st hd
      exact absurd (ha.symm.trans (this.trans hst)) (by decide)
  | probeWait =>
    rcases cycle_probeWait c rx w hst hist with ⟨hr, -, hn, -⟩ | ⟨-, -, ⟨-, hd⟩ | ⟨-, hd⟩⟩
    · rw [hn]
      obtain ⟨hne, e, hff, hel⟩ := hs hist
      refine ⟨hne, ?_⟩
      have hz : (disc w).rem.toNat = 0 := by
        have hr : (w.tm.ok .main && w.tm.rem .main != 0) = false := hr
        rw [hok] at hr
        have : w.tm.rem .main = 0 := by simpa using hr
        show (w.tm.rem .main).toNat = 0
        rw [this]; rfl
      obtain ⟨pre, mid, rxp, post, e1, q1, q2, q3, q4, q5, q6⟩ := hff
      exact ⟨pre, mid, rxp, post, e1, q1, q2, q3, q4, q5, by omega⟩
    · have := congrArg Disc.st hd
      exact absurd (ha.symm.trans (this.trans hst)) (by decide)
    · have := congrArg Disc.st hd
      exact absurd (ha.symm.trans (this.trans hst)) (by decide)

/-- A node which gives up (goes idle out of the discovery) has probed every nickname from the first one on up to 254, each of which
was acknowledged, and then 0xFF. -/
theorem C31_give_up {c : Ctx} (ok : Tmr → Bool) (ps : Nat → U8) (ops : List Op) (rx : Option Msg) (hok : ok .main = true)
    (hi : ∀ ok', .init ok' ∈ ops → ok' .main = true) (hst : (node c ok ps ops).v.st = .init)
    (ha : (node c ok ps (ops ++ [.process rx])).v.st = .idle) :
    ∃ pre mid, ops = pre ++ mid ∧ Scanned c (node c ok ps pre) mid 255 ∧ probed c (node c ok ps ops) [.process rx] = [0xFF] := by
  have en : ∀ l, node c ok ps l = runOps c l (node c ok ps []) := fun l => rfl
  obtain ⟨w0, hw0⟩ : ∃ w0, w0 = node c ok ps [] := ⟨_, rfl⟩
  have h0 : w0.v.st ≠ .init := by rw [hw0]; exact init_not_init c ok _
  have h1 : w0.tm.ok .main = true := by rw [hw0]; exact (congrFun (init_ok c ok _) .main).trans hok
  rw [en, ← hw0] at hst
  rw [en, ← hw0, runOps_append] at ha
  show ∃ pre mid, ops = pre ++ mid ∧ Scanned c (runOps c pre (node c ok ps [])) mid 255 ∧
    probed c (runOps c ops (node c ok ps [])) [.process rx] = [0xFF]
  simp only [← hw0]
  have hs := search c w0 h0 h1 ops hi
  obtain ⟨w, hw⟩ : ∃ w, w = runOps c ops w0 := ⟨_, rfl⟩
  rw [← hw] at hs ha hst ⊢
  have ha : (Core.process c rx w).2.v.st = .idle := ha
  obtain ⟨hok, hs⟩ := hs
  obtain ⟨hs, -⟩ := hs hst
  cases hist : w.v.ist with
  | probeMaster =>
    rcases cycle_probeMaster c rx w hst hist with ⟨-, -, hd⟩ | ⟨-, -, hd⟩ <;>
    · have := congrArg Disc.st hd
      exact absurd (ha.symm.trans (this.trans hst)) (by decide)
  | probeMasterWait =>
    obtain ⟨-, ⟨-, hd⟩ | ⟨-, hd | hd⟩⟩ := cycle_probeMasterWait c rx w hst hist
    · have := congrArg Disc.st hd
      exact absurd (ha.symm.trans (this.trans hst)) (by decide)
    · have := congrArg Disc.st hd
      exact absurd (ha.symm.trans this) (by simp)
    · have := congrArg Disc.st hd
      exact absurd (ha.symm.trans (this.trans hst)) (by decide)
  | probe =>
    rcases cycle_probe c rx w hst hist with ⟨-, -, hd⟩ | ⟨-, hp, ⟨hff, -⟩ | ⟨-, hd⟩⟩
    · have := congrArg Disc.st hd
      exact absurd (ha.symm.trans (this.trans hst)) (by decide)
    · obtain ⟨pre, mid, e, hsc⟩ := hs hist
      have e2 : (disc w).probe.toNat = 255 := by
        show w.v.probe.toNat = 255
        rw [hff]; rfl
      rw [e2] at hsc
      exact ⟨pre, mid, e, hsc, by rw [probed_process, hp, hff]⟩
    · have := congrArg Disc.st hd
      exact absurd (ha.symm.trans (this.trans hst)) (by decide)
  | probeWait =>
    rcases cycle_probeWait c rx w hst hist with ⟨hr, hd, hn, -⟩ | ⟨-, -, ⟨-, hd⟩ | ⟨-, hd⟩⟩
    · exact absurd (ha.symm.trans hd) (by decide)
    · have := congrArg Disc.st hd
      exact absurd (ha.symm.trans (this.trans hst)) (by decide)
    · have := congrArg Disc.st hd
      exact absurd (ha.symm.trans (this.trans hst)) (by decide)

/-! ### C32: the discovery ends -/

theorem not_looking_preActive (c : Ctx) (op : Op) (w : W) (h : ¬looking w) : (stepOp c op w).2.v.st ≠ .preActive := by
  have h2 : w.v.st ≠ .preActive := fun e => h (.inr e)
  have h1 : w.v.st ≠ .init := fun e => h (.inl e)
  have key : ∀ (A : List Act) (w1 w2 : W), Steps c True A w1 w2 → .st .preActive ∉ A → w1.v.st ≠ .preActive → w2.v.st ≠ .preActive := by
    intro A w1 w2 hs hA hw
    refine hs.inv (P := fun w => w.v.st ≠ .preActive) (fun a ha w w' hst h => ?_) hw
    by_cases hv : a = .initVars
    · subst hv
      obtain ⟨r, e⟩ := hst
      rw [e]
      simp
    · by_cases hs : ∃ s, a = .st s
      · obtain ⟨s, rfl⟩ := hs
        have e : w' = { w with v := { w.v with st := s }, out := w.out ++ lampCalls s } := hst.2
        rw [e]
        intro e2
        have e2 : s = .preActive := e2
        exact hA (e2 ▸ ha)
      · have := hst.same .st (by cases a <;> first | exact absurd rfl hv | exact absurd ⟨_, rfl⟩ hs | rfl)
        have : w'.v.st = w.v.st := this
        rw [this]; exact h
  by_cases hp : ∃ rx, op = .process rx
  · obtain ⟨rx, rfl⟩ := hp
    refine key _ _ _ (process_state c rx w) ?_ ?_
    · cases hw : w.v.st <;> first | exact absurd hw h1 | exact absurd hw h2 | decide
    · rw [show (preProcess c rx w).2.v.st = w.v.st from pre_same c rx w .st (by decide)]; exact h2
  · refine key _ _ _ (op_steps c op (fun rx e => hp ⟨rx, e⟩) w) ?_ h2
    cases op <;> simp [opActs]

/-- The discovery begins with the segment master. -/
theorem begins (c : Ctx) (op : Op) (w : W) (h : ¬looking w) (h' : looking (stepOp c op w).2) :
    (stepOp c op w).2.v.st = .init ∧ (stepOp c op w).2.v.ist = .probeMaster := by
  have hst : (stepOp c op w).2.v.st = .init := h'.resolve_right (not_looking_preActive c op w h)
  refine ⟨hst, ?_⟩
  have h1 : w.v.st ≠ .init := fun e => h (.inl e)
  have h2 : w.v.st ≠ .preActive := fun e => h (.inr e)
  by_cases hp : ∃ rx, op = .process rx
  · obtain ⟨rx, rfl⟩ := hp
    exact K_cycle c rx w h1 h2 hst
  · rcases op_look c op w (fun rx e => hp ⟨rx, e⟩) with (h3 | ⟨h3, -⟩) | ⟨-, h3, -⟩
    · exact absurd h' h3
    · exact h3
    · exact absurd (h3.symm.trans hst) h1

/-- The probes sent so far, from the state of the discovery. -/
def Sent (c : Ctx) (d : Disc) (l : List U8) : Prop :=
  (d.st = .preActive → l = [0]) ∧ (d.st = .init →
    (d.ist = .probeMaster → l = []) ∧ (d.ist = .probeMasterWait → l = [0]) ∧
    (d.ist = .probe → c.startProbe.toNat ≤ d.probe.toNat ∧ l = 0 :: nicknames c.startProbe (d.probe.toNat - c.startProbe.toNat)) ∧
    (d.ist = .probeWait → c.startProbe.toNat ≤ d.probe.toNat ∧ d.probe ≠ 0xFF ∧
      l = 0 :: nicknames c.startProbe (d.probe.toNat + 1 - c.startProbe.toNat)))

theorem sent_cycle {c : Ctx} {rx : Option Msg} {w : W} {l : List U8} (hl : looking w) (h : Sent c (disc w) l)
    (h' : looking (Core.process c rx w).2 ∨ (Core.process c rx w).2.v.st = .idle) :
    (∃ k, k ≤ 256 - c.startProbe.toNat ∧ (l ++ probed c w [.process rx] = [] ∨ l ++ probed c w [.process rx] = 0 :: nicknames c.startProbe k)) ∧
    Sent c (disc (Core.process c rx w).2) (l ++ probed c w [.process rx]) := by
  rw [probed_process]
  have hn0 : nicknames c.startProbe 0 = [] := rfl
  have hs : c.startProbe.toNat < 256 := c.startProbe.isLt
  have hself : ∀ q : U8, q.toNat - q.toNat = 0 := fun q => Nat.sub_self _
  have hna : (Core.process c rx w).2.v.st ≠ .active := by
    intro e
    unfold looking at h'
    rw [e] at h'
    simp at h'
  rcases hl with hl | hl
  · obtain ⟨-, h⟩ := h
    obtain ⟨h1, h2, h3, h4⟩ := h hl
    have dst : (disc w).st = .init := hl
    cases hist : w.v.ist with
    | probeMaster =>
      have dist : (disc w).ist = .probeMaster := hist
      have el := h1 hist
      subst el
      rcases cycle_probeMaster c rx w hl hist with ⟨-, hp, hd⟩ | ⟨-, hp, hd⟩
      · rw [hp, hd]
        refine ⟨⟨0, Nat.zero_le _, .inl rfl⟩, ?_⟩
        simp [Sent, dst, dist]
      · rw [hp, hd]
        refine ⟨⟨0, Nat.zero_le _, .inr rfl⟩, ?_⟩
        simp [Sent, dst]
    | probeMasterWait =>
      have dist : (disc w).ist = .probeMasterWait := hist
      have el := h2 hist
      subst el
      obtain ⟨ho, hd⟩ := cycle_probeMasterWait c rx w hl hist
      have hp : probesOf ((Core.process c rx w).2.out.drop w.out.length) = [] := by rw [ho]; simp [probesOf]
      rw [hp]
      refine ⟨⟨0, Nat.zero_le _, .inr rfl⟩, ?_⟩
      rcases hd with ⟨-, hd⟩ | ⟨-, hd | hd⟩
      · rw [hd]; simp [Sent, dst, hn0]
      · rw [hd]; simp [Sent]
      · rw [hd]; simp [Sent, dst, dist]
    | probe =>
      have dist : (disc w).ist = .probe := hist
      obtain ⟨hle, el⟩ := h3 hist
      have hlt := w.v.probe.isLt
      have hle' : c.startProbe.toNat ≤ w.v.probe.toNat := hle
      have el' : l = 0 :: nicknames c.startProbe (w.v.probe.toNat - c.startProbe.toNat) := el
      rcases cycle_probe c rx w hl hist with ⟨-, hp, hd⟩ | ⟨-, hp, ⟨-, hd⟩ | ⟨hne, hd⟩⟩
      · rw [hp, List.append_nil, hd]
        refine ⟨⟨_, ?_, .inr el'⟩, ?_⟩
        · omega
        · simpa [Sent, dst, dist] using ⟨hle, el⟩
      · have e2 : l ++ [w.v.probe] = 0 :: nicknames c.startProbe (w.v.probe.toNat + 1 - c.startProbe.toNat) := by
          rw [el', nicknames_succ _ _ hle']; rfl
        rw [hp, e2]
        refine ⟨⟨_, ?_, .inr rfl⟩, ?_⟩
        · omega
        · have e3 : (disc (Core.process c rx w).2).st = .idle := hd
          simp [Sent, e3]
      · have e2 : l ++ [w.v.probe] = 0 :: nicknames c.startProbe (w.v.probe.toNat + 1 - c.startProbe.toNat) := by
          rw [el', nicknames_succ _ _ hle']; rfl
        rw [hp, e2, hd]
        refine ⟨⟨_, ?_, .inr rfl⟩, ?_⟩
        · omega
        · have hne : (disc w).probe ≠ 0xFF := hne
          simp only [Sent, dst, reduceCtorEq, false_implies, true_implies, true_and]
          exact ⟨hle, hne, rfl⟩
    | probeWait =>
      have dist : (disc w).ist = .probeWait := hist
      obtain ⟨hle, hne, el⟩ := h4 hist
      have hlt := w.v.probe.isLt
      have hle' : c.startProbe.toNat ≤ w.v.probe.toNat := hle
      have hne' : w.v.probe ≠ 0xFF := hne
      have el' : l = 0 :: nicknames c.startProbe (w.v.probe.toNat + 1 - c.startProbe.toNat) := el
      rcases cycle_probeWait c rx w hl hist with ⟨-, ha, -, -⟩ | ⟨-, hout, hd⟩
      · exact absurd ha hna
      · have hp : probesOf ((Core.process c rx w).2.out.drop w.out.length) = [] := by rw [hout]; simp [probesOf]
        rw [hp, List.append_nil]
        refine ⟨⟨_, ?_, .inr el'⟩, ?_⟩
        · omega
        rcases hd with ⟨-, hd⟩ | ⟨-, hd⟩
        · rw [hd]
          have : w.v.probe.toNat ≠ 255 := fun h => hne' (BitVec.eq_of_toNat_eq h)
          have hsucc : (w.v.probe + 1).toNat = w.v.probe.toNat + 1 := by
            rw [BitVec.toNat_add]
            show (_ + 1) % 256 = _
            omega
          simp only [Sent, dst, reduceCtorEq, false_implies, true_implies, true_and, and_true, hsucc]
          exact ⟨by omega, el'⟩
        · rw [hd]
          simp only [Sent, dst, dist, reduceCtorEq, false_implies, true_implies, true_and]
          exact ⟨hle, hne, el⟩
  · obtain ⟨h, -⟩ := h
    have el := h hl
    subst el
    have dst : (disc w).st = .preActive := hl
    rcases cycle_preActive c rx w hl with ⟨-, hp, hd⟩ | ⟨-, ha | ⟨hp, hd⟩⟩
    · rw [hp, hd]
      refine ⟨⟨0, Nat.zero_le _, .inr rfl⟩, ?_⟩
      simp [Sent, hn0]
    · exact absurd ha hna
    · rw [hp, hd]
      refine ⟨⟨0, Nat.zero_le _, .inr rfl⟩, ?_⟩
      simp [Sent, dst]

/-- From the moment a node begins to look for a nickname until it finds one (or gives up, or the application interferes), it probes the
segment master once, and then every nickname at most once, in ascending order. -/
theorem C32_probes {c : Ctx} {w : W} (op : Op) (mid : List Op) (h0 : ¬looking w) (h1 : looking (stepOp c op w).2)
    (hm : ∀ l l', mid = l ++ l' → l' ≠ [] → looking (runOps c l (stepOp c op w).2))
    (he : looking (runOps c mid (stepOp c op w).2) ∨ (runOps c mid (stepOp c op w).2).v.st = .idle)
    (hn : .startNodeSegmentInit ∉ mid) :
    ∃ k, k ≤ 256 - c.startProbe.toNat ∧ (probed c (stepOp c op w).2 mid = [] ∨ probed c (stepOp c op w).2 mid = 0 :: nicknames c.startProbe k) := by
  obtain ⟨b1, b2⟩ := begins c op w h0 h1
  generalize (stepOp c op w).2 = w1 at *
  suffices h : (∃ k, k ≤ 256 - c.startProbe.toNat ∧ (probed c w1 mid = [] ∨ probed c w1 mid = 0 :: nicknames c.startProbe k)) ∧
      Sent c (disc (runOps c mid w1)) (probed c w1 mid) from h.1
  induction mid using snoc_induction with
  | nil =>
    refine ⟨⟨0, Nat.zero_le _, .inl rfl⟩, ?_⟩
    have e1 : (disc w1).st = .init := b1
    have e2 : (disc w1).ist = .probeMaster := b2
    simp [Sent, runOps, e1, e2, probed]
  | snoc mid op ih =>
    have hl : looking (runOps c mid w1) := hm mid [op] rfl (by simp)
    have ih := ih (fun h => hn (List.mem_append_left _ h)) (fun l l' e hne => hm l (l' ++ [op]) (by rw [e]; simp) (by simp)) (.inl hl)
    have hn : op ≠ .startNodeSegmentInit := fun h => hn (List.mem_append_right _ (by simp [h]))
    rw [runOps_append] at he ⊢
    rw [probed_append]
    generalize runOps c mid w1 = w at *
    have er : runOps c [op] w = (stepOp c op w).2 := rfl
    rw [er] at he ⊢
    by_cases hp : ∃ rx, op = .process rx
    · obtain ⟨rx, rfl⟩ := hp
      exact sent_cycle hl ih.2 he
    · have hp : ∀ rx, op ≠ .process rx := fun rx e => hp ⟨rx, e⟩
      rw [probed_other c w op hp, List.append_nil]
      refine ⟨ih.1, ?_⟩
      rcases op_look c op w hp with (h | h) | ⟨-, e1, e2, e3, -⟩
      · have hid := he.resolve_left h
        have e : (disc (stepOp c op w).2).st = .idle := hid
        simp [Sent, e]
      · exact absurd h.2 hn
      · have h2 := ih.2
        unfold Sent disc at h2 ⊢
        dsimp only at h2 ⊢
        rw [e1, e2, e3]
        exact h2

/-- The number of probes (with the one of the segment master) is at most 257. -/
theorem C32_count {c : Ctx} {w : W} (op : Op) (mid : List Op) (h0 : ¬looking w) (h1 : looking (stepOp c op w).2)
    (hm : ∀ l l', mid = l ++ l' → l' ≠ [] → looking (runOps c l (stepOp c op w).2))
    (he : looking (runOps c mid (stepOp c op w).2) ∨ (runOps c mid (stepOp c op w).2).v.st = .idle)
    (hn : .startNodeSegmentInit ∉ mid) : (probed c (stepOp c op w).2 mid).length ≤ 257 - c.startProbe.toNat := by
  have := c.startProbe.isLt
  obtain ⟨k, hk, h | h⟩ := C32_probes op mid h0 h1 hm he hn <;> rw [h]
  · simp
  · simp [nicknames]; omega

/-- An upper bound for the number of cycles the discovery still takes. -/
def phi (c : Ctx) (d : Disc) : Nat :=
  let k := c.probeAckTimeout.toNat + 2
  if d.st = .preActive then 256 * k + d.rem.toNat + 1
  else match d.ist with
    | .probeMaster => 256 * k + c.initTimeout.toNat + 3
    | .probeMasterWait => 256 * k + d.rem.toNat + 2
    | .probe => (256 - d.probe.toNat) * k
    | .probeWait => (255 - d.probe.toNat) * k + d.rem.toNat + 1

/-- One round: time passes, then a cycle. -/
theorem phi_round {c : Ctx} (htx : ∀ n, c.txOk n = true) (ms : Nat) (hms : 1 ≤ ms) (rx : Option Msg) (w : W) (hok : w.tm.ok .main = true)
    (hl : looking w) (hne : w.v.st = .init → w.v.ist = .probeWait → w.v.probe ≠ 0xFF) :
    ¬looking (stepOp c (.process rx) (stepOp c (.tick ms) w).2).2 ∨
    phi c (disc (stepOp c (.process rx) (stepOp c (.tick ms) w).2).2) < phi c (disc w) := by
  have hr : ((stepOp c (.tick ms) w).2.tm.rem .main).toNat = (w.tm.rem .main).toNat - ms := tick_rem c ms w .main
  have e1 : (stepOp c (.tick ms) w).2.v = w.v := rfl
  have e2 : (stepOp c (.tick ms) w).2.tm.ok = w.tm.ok := rfl
  generalize (stepOp c (.tick ms) w).2 = w1 at *
  show ¬looking (Core.process c rx w1).2 ∨ phi c (disc (Core.process c rx w1).2) < phi c (disc w)
  have hrun : ∀ b, (disc w1).running = b → (b = true → (w1.tm.rem .main).toNat < (w.tm.rem .main).toNat) := by
    rintro b hb rfl
    have : w1.tm.rem .main ≠ 0 := by
      intro h
      unfold Disc.running disc at hb
      simp [h] at hb
    have : (w1.tm.rem .main).toNat ≠ 0 := fun h => this (BitVec.eq_of_toNat_eq h)
    omega
  have hs := c.startProbe.isLt
  obtain ⟨K, hK⟩ : ∃ K, K = c.probeAckTimeout.toNat + 2 := ⟨_, rfl⟩
  have hscan : (256 - c.startProbe.toNat) * K ≤ 256 * K := Nat.mul_le_mul_right _ (by omega)
  rcases hl with hst | hst
  · have hst1 : w1.v.st = .init := by rw [e1]; exact hst
    cases hist : w.v.ist with
    | probeMaster =>
      have hist1 : w1.v.ist = .probeMaster := by rw [e1]; exact hist
      right
      rcases cycle_probeMaster c rx w1 hst1 hist1 with ⟨hf, -, -⟩ | ⟨-, -, hd⟩
      · rw [htx] at hf; cases hf
      · rw [hd]
        simp only [phi, disc, hst1, hst, hist, ← hK, e2, hok, if_true, reduceCtorEq, if_false]
        omega
    | probeMasterWait =>
      have hist1 : w1.v.ist = .probeMasterWait := by rw [e1]; exact hist
      obtain ⟨-, ⟨-, hd⟩ | ⟨hrn, hd | hd⟩⟩ := cycle_probeMasterWait c rx w1 hst1 hist1
      · right
        rw [hd]
        simp only [phi, disc, hst1, hst, hist, ← hK, reduceCtorEq, if_false]
        omega
      · right
        have := hrun _ hrn rfl
        rw [hd]
        simp only [phi, disc, hst, hist, ← hK, reduceCtorEq, if_false, if_true]
        omega
      · right
        have := hrun _ hrn rfl
        rw [hd]
        simp only [phi, disc, hst1, hist1, hst, hist, ← hK, reduceCtorEq, if_false]
        omega
    | probe =>
      have hist1 : w1.v.ist = .probe := by rw [e1]; exact hist
      rcases cycle_probe c rx w1 hst1 hist1 with ⟨hf, -, -⟩ | ⟨-, -, ⟨-, hd⟩ | ⟨hnf, hd⟩⟩
      · rw [htx] at hf; cases hf
      · left
        unfold looking
        rw [hd]
        simp
      · right
        rw [hd]
        have hlt := w.v.probe.isLt
        rw [e1] at hnf
        have : w.v.probe.toNat ≠ 255 := fun h => hnf (BitVec.eq_of_toNat_eq h)
        have e4 : 256 - w.v.probe.toNat = (255 - w.v.probe.toNat) + 1 := by omega
        simp only [phi, disc, hst, hist, e1, e2, hok, ← hK, reduceCtorEq, if_false, if_true]
        rw [e4, Nat.add_mul]
        omega
    | probeWait =>
      have hist1 : w1.v.ist = .probeWait := by rw [e1]; exact hist
      have hne := hne hst hist
      have hlt := w.v.probe.isLt
      have : w.v.probe.toNat ≠ 255 := fun h => hne (BitVec.eq_of_toNat_eq h)
      have hsucc : (w.v.probe + 1).toNat = w.v.probe.toNat + 1 := by
        rw [BitVec.toNat_add]
        show (_ + 1) % 256 = _
        omega
      rcases cycle_probeWait c rx w1 hst1 hist1 with ⟨-, ha, -, -⟩ | ⟨hrn, -, ⟨-, hd⟩ | ⟨-, hd⟩⟩
      · left
        unfold looking
        rw [ha]
        simp
      · right
        rw [hd]
        have e4 : 256 - (w.v.probe.toNat + 1) = 255 - w.v.probe.toNat := by omega
        simp only [phi, disc, hst, hist, e1, hsucc, ← hK, reduceCtorEq, if_false, e4]
        omega
      · right
        have := hrun _ hrn rfl
        rw [hd]
        simp only [phi, disc, hst, hist, e1, ← hK, reduceCtorEq, if_false]
        omega
  · have hst1 : w1.v.st = .preActive := by rw [e1]; exact hst
    rcases cycle_preActive c rx w1 hst1 with ⟨-, -, hd⟩ | ⟨hrn, ha | ⟨-, hd⟩⟩
    · right
      rw [hd]
      simp only [phi, disc, hst, ← hK, reduceCtorEq, if_false, if_true]
      omega
    · left
      unfold looking
      rw [ha]
      simp
    · right
      have := hrun _ hrn rfl
      rw [hd]
      simp only [phi, disc, hst1, hst, ← hK, if_true]
      omega

theorem phi_bound (c : Ctx) (d : Disc) : phi c d ≤ 256 * (c.probeAckTimeout.toNat + 2) + 65540 := by
  have h1 := d.rem.isLt
  have h2 := c.initTimeout.isLt
  obtain ⟨K, hK⟩ : ∃ K, K = c.probeAckTimeout.toNat + 2 := ⟨_, rfl⟩
  have h3 : (256 - d.probe.toNat) * K ≤ 256 * K := Nat.mul_le_mul_right _ (by omega)
  have h4 : (255 - d.probe.toNat) * K ≤ 256 * K := Nat.mul_le_mul_right _ (by omega)
  unfold phi
  simp only [← hK]
  split
  · omega
  · split <;> omega

theorem rounds_cons (ms : Nat) (rx : Option Msg) (l : List (Nat × Option Msg)) : rounds ((ms, rx) :: l) = .tick ms :: .process rx :: rounds l := rfl

/-- With working transmission a node which looks for a nickname does so for a bounded number of cycles only, whatever it receives:
after that it has a nickname, or has given up. -/
theorem C32_ends {c : Ctx} (htx : ∀ n, c.txOk n = true) (ok : Tmr → Bool) (ps : Nat → U8) (ops : List Op) (hok : ok .main = true)
    (hi : ∀ ok', .init ok' ∈ ops → ok' .main = true) (l : List (Nat × Option Msg)) (hms : ∀ x ∈ l, 1 ≤ x.1)
    (hlen : 256 * (c.probeAckTimeout.toNat + 2) + 65540 < l.length) :
    ∃ l1 l2, l = l1 ++ l2 ∧ ¬looking (node c ok ps (ops ++ rounds l1)) := by
  have key : ∀ (l : List (Nat × Option Msg)) (ops : List Op), (∀ x ∈ l, 1 ≤ x.1) → (∀ ok', .init ok' ∈ ops → ok' .main = true) →
      phi c (disc (node c ok ps ops)) < l.length → ∃ l1 l2, l = l1 ++ l2 ∧ ¬looking (node c ok ps (ops ++ rounds l1)) := by
    intro l
    induction l with
    | nil => intro ops _ _ hlen; simp at hlen
    | cons x l ih =>
      obtain ⟨ms, rx⟩ := x
      intro ops hms hi hlen
      have h2 : node c ok ps (ops ++ [.tick ms, .process rx]) = (stepOp c (.process rx) (stepOp c (.tick ms) (node c ok ps ops)).2).2 := by
        show runOps c (ops ++ [.tick ms, .process rx]) (node c ok ps []) = _
        rw [runOps_append]; rfl
      by_cases hl : looking (node c ok ps ops)
      · have hs := search c (node c ok ps []) (init_not_init c ok _) ((congrFun (init_ok c ok _) .main).trans hok) ops hi
        have hs : Search c (node c ok ps []) ops (disc (node c ok ps ops)) := hs
        rcases phi_round htx ms (hms (ms, rx) (by simp)) rx (node c ok ps ops) hs.1 hl (fun h1 h2 => ((hs.2 h1).2 h2).1) with h | h
        · refine ⟨[(ms, rx)], l, rfl, ?_⟩
          rw [rounds_cons]
          show ¬looking (node c ok ps (ops ++ [.tick ms, .process rx]))
          rw [h2]; exact h
        · rw [← h2] at h
          obtain ⟨l1, l2, e, hn⟩ := ih (ops ++ [.tick ms, .process rx]) (fun x hx => hms x (List.mem_cons_of_mem _ hx))
            (fun ok' hm => hi ok' (by simpa using hm)) (by simp only [List.length_cons] at hlen; omega)
          refine ⟨(ms, rx) :: l1, l2, by rw [e]; rfl, ?_⟩
          rw [rounds_cons]
          simpa using hn
      · exact ⟨[], _, rfl, by simpa [rounds] using hl⟩
  refine key l ops hms hi ?_
  have := phi_bound c (disc (node c ok ps ops))
  omega

/-! ### Examples -/

/-- No nickname stored. -/
def fresh : Nat → U8 := fun a => if a = 1 then 0xFF else mem 0x60 a

/-- The segment master does not answer, nicknames 1 and 2 are taken, and nobody answers for 3. -/
def taken12 : List Op :=
  [.process none, .process none, .tick 1000, .process none,
   .process none, .tick 5, .process (some (Ex.msg 0 3 1 [])),
   .process none, .tick 7, .process (some (Ex.msg 0 3 1 [])), .process (some (Ex.msg 0 3 2 [])),
   .process none, .tick 1999, .process (some (Ex.msg 0 3 2 [])), .tick 1]

/-- The hypotheses of C31_found_free and the result. -/
example : (node Ex.ctx allOk fresh taken12).v.st = .init ∧ (node Ex.ctx allOk fresh (taken12 ++ [.process none])).v.st = .active ∧
    (node Ex.ctx allOk fresh (taken12 ++ [.process none])).v.nick = 3 ∧
    probed Ex.ctx (node Ex.ctx allOk fresh []) taken12 = [0, 1, 2, 3] := by decide +kernel

/-- The hypotheses of C31_give_up: every nickname is taken. -/
def allTaken : Nat → List Op
  | 0 => []
  | n + 1 => allTaken n ++ [.process none, .process (some (Ex.msg 0 3 (BitVec.ofNat 8 (n + 1)) []))]

set_option maxRecDepth 4000 in
example : (node Ex.ctx allOk fresh ([.process none, .process none, .tick 1000, .process none] ++ allTaken 254)).v.st = .init ∧
    (node Ex.ctx allOk fresh ([.process none, .process none, .tick 1000, .process none] ++ allTaken 254 ++ [.process none])).v.st = .idle := by
  decide +kernel

/-- The hypotheses of C32_probes: the second and the third call are part of the discovery. -/
example : ¬looking (node Ex.ctx allOk fresh []) ∧ looking (stepOp Ex.ctx (.process none) (node Ex.ctx allOk fresh [])).2 ∧
    looking (runOps Ex.ctx [.process none, .tick 1000] (stepOp Ex.ctx (.process none) (node Ex.ctx allOk fresh [])).2) ∧
    probed Ex.ctx (stepOp Ex.ctx (.process none) (node Ex.ctx allOk fresh [])).2 [.process none, .tick 1000] = [0] := by decide +kernel

/-- The hypotheses of C32_ends: a configuration whose transmissions always work, and a node which looks for a nickname. -/
example : (∀ n, ({ Ex.ctx with txOk := fun _ => true } : Ctx).txOk n = true) ∧
    looking (node { Ex.ctx with txOk := fun _ => true } allOk fresh [.process none]) ∧
    (List.replicate 700000 ((1, none) : Nat × Option Msg)).length > 256 * (Ex.ctx.probeAckTimeout.toNat + 2) + 65540 :=
  ⟨fun _ => rfl, by decide +kernel, by rw [List.length_replicate]; decide⟩

end Vscp.Discovery
