/-
The trace of histories.
-/
import Verif.Spec.Trace
import Verif.Lemmas.Ops

namespace Vscp
open M Spec

theorem memAfter_append (ps : Nat → U8) (t t' : List Out) : memAfter ps (t ++ t') = memAfter (memAfter ps t) t' := by
  induction t generalizing ps with
  | nil => rfl
  | cons o t ih => cases o <;> simp [memAfter, ih]

theorem memAfter_traceOf (ps : Nat → U8) (l : List (Nat × U8)) : memAfter ps (traceOf l) = applyWrites ps l := by
  induction l generalizing ps with
  | nil => rfl
  | cons x l ih => exact ih _

theorem Spec.Always.nil {P ps} : Always P ps [] := by
  intro pre o post h
  simp at h

theorem Spec.Always.single {P ps o} (h : P ps o) : Always P ps [o] := by
  intro pre o' post he
  cases pre with
  | nil => simp at he; rw [← he.1]; exact h
  | cons a pre => simp at he

theorem Spec.Always.append {P ps t t'} (h : Always P ps t) (h' : Always P (memAfter ps t) t') : Always P ps (t ++ t') := by
  intro pre o post he
  rcases List.append_eq_append_iff.mp he with ⟨u, hu, hv⟩ | ⟨u, hu, hv⟩
  · subst hu
    rw [memAfter_append]
    exact h' u o post hv
  · cases u with
    | nil =>
      simp at hv hu
      subst hu
      exact h' [] o post hv.symm
    | cons x u =>
      simp at hv
      obtain ⟨rfl, rfl⟩ := hv
      exact h pre o u hu

theorem Spec.Always.left {P ps t t'} (h : Always P ps (t ++ t')) : Always P ps t := by
  intro pre o post he
  subst he
  exact h pre o (post ++ t') (by simp)

theorem Spec.Always.right {P ps t t'} (h : Always P ps (t ++ t')) : Always P (memAfter ps t) t' := by
  intro pre o post he
  subst he
  rw [← memAfter_append]
  exact h (t ++ pre) o post (by simp)

theorem Spec.Always.mono {P Q : (Nat → U8) → Out → Prop} {ps t} (h : Always P ps t) (hpq : ∀ ps o, P ps o → Q ps o) :
    Always Q ps t := fun pre o post he => hpq _ _ (h pre o post he)

theorem writeEnabled_iff (f : U8) : (f >>> 5) &&& 0x01 ≠ 0 ↔ writeEnable f = true := by
  revert f; decide +kernel

/-! ### Bounds of the writes of the factory restore -/

/-- All writes are below `b`. -/
def Below (b : Nat) (l : List (Nat × U8)) : Prop := ∀ x ∈ l, x.1 < b

namespace Below
theorem mono {a b l} (h : Below a l) (hab : a ≤ b) : Below b l := fun x hx => Nat.lt_of_lt_of_le (h x hx) hab
theorem nil {b} : Below b [] := fun x hx => by simp at hx
theorem append {b l l'} (h : Below b l) (h' : Below b l') : Below b (l ++ l') := fun x hx => by
  rcases List.mem_append.mp hx with hx | hx
  · exact h x hx
  · exact h' x hx
theorem ite {p : Prop} [Decidable p] {b l} (h : p → Below b l) : Below b (if p then l else []) := by
  split
  · exact h ‹_›
  · exact nil
theorem flatMap {b n} {g : Nat → List (Nat × U8)} (h : ∀ i, Below b (g i)) : Below b ((List.range n).flatMap g) := by
  intro x hx
  obtain ⟨i, -, hi⟩ := List.mem_flatMap.mp hx
  exact h i x hi
theorem idxW {b a s i v} (h : a + s ≤ b) : Below b (idxW a s i v) := fun _ hx =>
  Nat.lt_of_lt_of_le (mem_idxW hx).2.1 h
theorem bytesAt {b a l} (h : a + l.length ≤ b) : Below b (bytesAt a l) := fun _ hx =>
  Nat.lt_of_lt_of_le (mem_bytesAt hx).2 h
theorem single {b a v} (h : a < b) : Below b [(a, v)] := fun x hx => by
  simp at hx; subst hx; exact h
end Below

open Ps in
theorem layout_next (c : Cfg) : addrDmNg c ≤ addrNext c := Nat.le_add_right _ _

open Ps in
theorem below_all (c : Cfg) : Below (addrNext c) (Restore.all c) := by
  obtain ⟨h1, h2, h3, h4, h5, h6, h7, h8, h9, h10, h11⟩ := Restore.layout_mono c
  obtain ⟨l1, l2, l3, l4⟩ := Restore.layout_low c
  have hn := layout_next c
  have e1 : addrZone c = addrGuid c + sizeGuid c := rfl
  have e2 : addrSubZone c = addrZone c + sizeZone c := rfl
  have e3 : addrManu c = addrSubZone c + sizeSubZone c := rfl
  have e4 : addrManuSub c = addrManu c + sizeManu c := rfl
  have e5 : addrMdf c = addrManuSub c + sizeManuSub c := rfl
  have e6 : addrFam c = addrMdf c + sizeMdf c := rfl
  have e7 : addrType c = addrFam c + sizeFam c := rfl
  have e8 : addrLogId c = addrType c + sizeType c := rfl
  have e10 : addrDmExt c = addrDm c + sizeDm c := rfl
  have e11 : addrDmNg c = addrDmExt c + sizeDmExt c := rfl
  have e12 : addrNext c = addrDmNg c + sizeDmNg c := rfl
  rw [Restore.all, Restore.rest_eq]
  refine Below.append (l := [_]) (Below.single (by omega)) (Below.append (.ite fun _ => Below.single (by omega))
    (Below.append (l := [_]) (Below.single (by omega)) ?_))
  refine Below.append (.flatMap fun i => .idxW (by rw [show sizeUserId c = 5 from rfl]; omega)) ?_
  refine Below.append (.ite fun _ => .flatMap fun i => .idxW (by omega)) ?_
  refine Below.append (.ite fun h => .single (by rw [sizeZone, if_pos h] at e2; omega)) ?_
  refine Below.append (.ite fun h => .single (by rw [sizeSubZone, if_pos h] at e3; omega)) ?_
  refine Below.append (.ite fun _ => .flatMap fun i => .idxW (by omega)) ?_
  refine Below.append (.ite fun _ => .flatMap fun i => .idxW (by omega)) ?_
  refine Below.append (.ite fun _ => .flatMap fun i => .idxW (by omega)) ?_
  refine Below.append (.ite fun _ => .flatMap fun i => .idxW (by omega)) ?_
  refine Below.append (.ite fun _ => .flatMap fun i => .idxW (by omega)) ?_
  refine Below.append (.ite fun _ => .flatMap fun i => .append (.ite fun h => .bytesAt ?_) (.ite fun _ => .ite fun h => .bytesAt ?_))
    (.ite fun _ => .flatMap fun i => .idxW (by omega))
  · have := h.2; rw [List.length_replicate]; omega
  · rw [List.length_replicate]; omega

/-! ### What holds for every call -/

/-- What holds for every call of the framework; `user` are the frames sent by the application. -/
def OutOk (c : Ctx) (user : List Msg) (ps : Nat → U8) : Out → Prop
  | .tx m _ => m ∈ user ∨ ((m.oAddr = ps (Ps.addrNickname c) ∨
      ps (Ps.addrNickname c) = 0xFF ∧ m.cls = 0 ∧ (m.typ = 26 ∨ m.typ = 39)) ∧ m.hard = c.hardCoded ∧ m.prio.toNat < 8 ∧ m.cls.toNat < 512 ∧ m.size.toNat ≤ 8)
  | .psW a _ => a < Ps.addrNext c ∧ (Ps.addrDm c ≤ a → writeEnable (ps (Ps.addrFlags c)) = true)
  | .appWrite .. => writeEnable (ps (Ps.addrFlags c)) = true
  | _ => True

/-- The nickname in use is the stored one. -/
def NickOk (c : Ctx) (w : W) : Prop := w.v.nick = w.ps (Ps.addrNickname c)

/-- Writes behind the node control flags with the write-enable bit set. -/
theorem always_writes {c : Ctx} {user : List Msg} {l : List (Nat × U8)} (hf : From (Ps.addrUserId c) l)
    (hb : Below (Ps.addrNext c) l) {ps : Nat → U8} (h : writeEnable (ps (Ps.addrFlags c)) = true) :
    Always (OutOk c user) ps (traceOf l) := by
  induction l generalizing ps with
  | nil => exact .nil
  | cons x l ih =>
    refine Always.append (t := [.psW x.1 x.2]) (.single ⟨hb x (by simp), fun _ => h⟩) ?_
    refine ih (fun y hy => hf y (by simp [hy])) (fun y hy => hb y (by simp [hy])) ?_
    have h1 := hf x (by simp)
    have h2 := (Restore.layout_low c).2.2.1
    simp only [memAfter]
    rw [if_neg (by omega)]
    exact h

theorem always_restore {c : Ctx} {user : List Msg} {ps : Nat → U8} :
    Always (OutOk c user) ps (traceOf (Restore.all c) ++ [.appRestore, .portRestore]) := by
  have hl := Restore.layout_low c
  have hm := Restore.layout_mono c
  have hn := layout_next c
  have hb := below_all c
  refine .append ?_ (Always.append (t := [.appRestore]) (.single trivial) (.single trivial))
  have e : traceOf (Restore.all c) = [.psW (Ps.addrNickname c) 0xFF] ++
      (traceOf (if c.hbSegment then [(Ps.addrSegCrc c, 0xFF)] else []) ++ ([.psW (Ps.addrFlags c) 0xA0] ++
        traceOf (Restore.rest c))) := by simp [traceOf, Restore.all]
  rw [e]
  have hr : Below (Ps.addrNext c) (Restore.rest c) := fun x hx => hb x (by simp [Restore.all, hx])
  have hfr : From (Ps.addrUserId c) (Restore.rest c) := by rw [Restore.rest_eq]; exact Restore.from_t0 c
  refine Always.append (.single ⟨by omega, fun h => ?_⟩) (Always.append ?_ (Always.append (.single ⟨by omega, fun h => ?_⟩)
    (always_writes hfr hr ?_)))
  · omega
  · split
    · exact .single ⟨by dsimp only; omega, fun h => by dsimp only at h; omega⟩
    · exact .nil
  · omega
  · simp only [memAfter, if_true]
    rfl

/-- The effect of one step on trace, memory and nickname. -/
theorem Step.trace {c : Ctx} {bad : Prop} (hbad : ¬bad) {user : List Msg} {a : Act} (hu : ∀ m, a = .userTx m → m ∈ user)
    {w w' : W} (hs : Step c bad a w w') :
    ∃ t, w'.out = w.out ++ t ∧ w'.ps = memAfter w.ps t ∧ (NickOk c w → NickOk c w' ∧ Always (OutOk c user) w.ps t) := by
  have hl := Restore.layout_low c
  have hm := Restore.layout_mono c
  have hn := layout_next c
  have silent : ∀ {w' : W}, w'.out = w.out → w'.ps = w.ps → w'.v.nick = w.v.nick →
      ∃ t, w'.out = w.out ++ t ∧ w'.ps = memAfter w.ps t ∧ (NickOk c w → NickOk c w' ∧ Always (OutOk c user) w.ps t) := by
    intro w' h1 h2 h3
    exact ⟨[], by simp [h1], h2, fun h => ⟨by unfold NickOk; rw [h2, h3]; exact h, .nil⟩⟩
  have call : ∀ {w' : W} {o : Out}, w' = addOut o w → memAfter w.ps [o] = w.ps → OutOk c user w.ps o →
      ∃ t, w'.out = w.out ++ t ∧ w'.ps = memAfter w.ps t ∧ (NickOk c w → NickOk c w' ∧ Always (OutOk c user) w.ps t) := by
    intro w' o h1 h2 h3
    subst h1
    exact ⟨[o], rfl, h2.symm, fun h => ⟨h, .single h3⟩⟩
  have put : ∀ {a b}, a ≠ Ps.addrNickname c → OutOk c user w.ps (.psW a b) →
      ∃ t, (putPs a b w).out = w.out ++ t ∧ (putPs a b w).ps = memAfter w.ps t ∧
        (NickOk c w → NickOk c (putPs a b w) ∧ Always (OutOk c user) w.ps t) := by
    intro a b h1 h2
    refine ⟨[.psW a b], rfl, rfl, fun h => ⟨?_, .single h2⟩⟩
    unfold NickOk putPs
    simp only
    rw [if_neg (fun h => h1 h.symm)]
    exact h
  cases a with
  | tx =>
    obtain ⟨m, h1, h2, h3, rfl⟩ := hs
    obtain ⟨tp, ub, t, ht, hc⟩ := writeMessage_frame c m w
    rw [ht]
    rcases hc with hc | hc
    · exact ⟨t, rfl, by rw [hc]; rfl, fun h => ⟨h, by
        rw [hc]; exact .single (.inr ⟨by rw [← h]; exact h1, h2.1, h2.2.1, h2.2.2, h3.resolve_right hbad⟩)⟩⟩
    · exact ⟨t, rfl, by rw [hc.1]; rfl, fun h => ⟨h, by rw [hc.1]; exact .nil⟩⟩
  | userTx m =>
    simp only [Step] at hs
    obtain ⟨tp, ub, t, ht, hc⟩ := writeMessage_frame c m w
    rw [hs, ht]
    rcases hc with hc | hc
    · exact ⟨t, rfl, by rw [hc]; rfl, fun h => ⟨h, by rw [hc]; exact .single (.inl (hu m rfl))⟩⟩
    · exact ⟨t, rfl, by rw [hc.1]; rfl, fun h => ⟨h, by rw [hc.1]; exact .nil⟩⟩
  | lbRead =>
    obtain ⟨rx, -, rfl⟩ := hs
    obtain ⟨tp, ub, h⟩ := readMessage_frame' c rx w
    rw [h]; exact silent rfl rfl rfl
  | lbInit =>
    simp only [Step] at hs
    obtain ⟨tp, ub, h⟩ := tpInit_frame c w
    rw [hs, h]; exact silent rfl rfl rfl
  | restore =>
    simp only [Step] at hs
    rw [restore_run] at hs
    refine ⟨traceOf (Restore.all c) ++ [.appRestore, .portRestore], by rw [hs], ?_, fun h => ⟨?_, always_restore⟩⟩
    · rw [hs, memAfter_append, memAfter_traceOf]; rfl
    · rw [hs]; unfold NickOk; simp only; rw [Restore.nick_at]; rfl
  | nick =>
    obtain ⟨n, rfl⟩ := hs
    refine ⟨[.psW (Ps.addrNickname c) n], rfl, rfl, fun h => ⟨?_, .single ⟨by omega, fun h => by omega⟩⟩⟩
    simp [NickOk, putPs]
  | seg => obtain ⟨b, rfl⟩ := hs; exact put (by omega) ⟨by omega, fun h => by omega⟩
  | flags => obtain ⟨b, rfl⟩ := hs; exact put (by omega) ⟨by omega, fun h => by omega⟩
  | user => obtain ⟨i, b, hi, rfl⟩ := hs; exact put (by omega) ⟨by omega, fun h => by omega⟩
  | boot =>
    obtain ⟨hb, b, rfl⟩ := hs
    have h1 : Ps.addrNickname c = 1 := by simp [Ps.addrNickname, Ps.addrBootFlag, Ps.sizeBootFlag, hb]
    have h2 : Ps.addrBootFlag c = 0 := rfl
    exact put (by omega) ⟨by omega, fun h => by omega⟩
  | dmW =>
    obtain ⟨he, i, b, hi, rfl⟩ := hs
    have : Ps.addrDmExt c = Ps.addrDm c + Ps.sizeDm c := rfl
    exact put (by omega) ⟨by omega, fun _ => (writeEnabled_iff _).mp he⟩
  | ngW =>
    obtain ⟨he, i, b, hi, rfl⟩ := hs
    have : Ps.addrNext c = Ps.addrDmNg c + Ps.sizeDmNg c := rfl
    exact put (by omega) ⟨by omega, fun _ => (writeEnabled_iff _).mp he⟩
  | appWrite =>
    obtain ⟨he, p, a, v, rfl⟩ := hs
    rw [appWriteRegister_run]
    have hx : ∀ x ∈ Core.appStores c w.out.length p a v, Ps.addrUserId c + 5 ≤ x.1 ∧ x.1 < Ps.addrNext c := by
      intro x hx
      have e1 : Ps.addrGuid c = Ps.addrUserId c + 5 := rfl
      have e2 : Ps.addrZone c = Ps.addrGuid c + Ps.sizeGuid c := rfl
      have e3 : Ps.addrSubZone c = Ps.addrZone c + Ps.sizeZone c := rfl
      have e4 : Ps.addrManu c = Ps.addrSubZone c + Ps.sizeSubZone c := rfl
      rcases appStores_mem c _ p a v x hx with ⟨hz, hx⟩ | ⟨hz, hx⟩
      · rw [Ps.sizeZone, if_pos hz] at e3; omega
      · rw [Ps.sizeSubZone, if_pos hz] at e4; omega
    generalize Core.appStores c w.out.length p a v = l at hx
    refine ⟨.appWrite p a v (c.appWrite w.out.length w.ps p a v) :: traceOf l, ?_, ?_, fun h => ⟨?_, ?_⟩⟩
    · show (w.out ++ [_]) ++ traceOf l = _
      rw [List.append_assoc]; rfl
    · exact (memAfter_traceOf _ _).symm
    · unfold NickOk
      show w.v.nick = applyWrites w.ps l _
      rw [applyWrites_other fun x h => by have := hx x h; omega]
      exact h
    · refine Always.append (t := [.appWrite p a v (c.appWrite w.out.length w.ps p a v)]) (.single ((writeEnabled_iff _).mp he)) ?_
      exact always_writes (fun x h => by have := hx x h; omega) (fun x h => (hx x h).2) ((writeEnabled_iff _).mp he)
  | initVars =>
    obtain ⟨r, rfl⟩ := hs
    exact ⟨[.lamp .blinkSlow], rfl, rfl, fun h => ⟨rfl, .single trivial⟩⟩
  | st s =>
    obtain ⟨-, rfl⟩ := hs
    refine ⟨lampCalls s, rfl, ?_, fun h => ⟨h, ?_⟩⟩
    · cases s <;> rfl
    · cases s <;> first | exact .nil | exact .single trivial
  | resetReq =>
    obtain ⟨-, rfl⟩ := hs
    exact ⟨[.resetRequest], rfl, rfl, fun h => ⟨h, .single trivial⟩⟩
  | appRead => obtain ⟨p, a, r, h⟩ := hs; exact call h rfl trivial
  | protoEvent => obtain ⟨m, h', h⟩ := hs; exact call h rfl trivial
  | action => obtain ⟨i, p, m, h⟩ := hs; exact call h rfl trivial
  | event | timeUpdate => obtain ⟨l, h⟩ := hs; exact call h rfl trivial
  | idleEntered | errorEntered | bootReq | customHb => exact call hs rfl trivial
  | dmIdx => obtain ⟨_, _, rfl⟩ := hs; exact silent rfl rfl rfl
  | ngVars | ist => obtain ⟨_, _, rfl⟩ := hs; exact silent rfl rfl rfl
  | page | ext | guid | sec | epochSet | tm t | rxVar | lg | tick | tmInit | alarmOr =>
    obtain ⟨_, rfl⟩ := hs; exact silent rfl rfl rfl
  | alarm | dmInit | hb | errClr => simp only [Step] at hs; subst hs; exact silent rfl rfl rfl
  | ub => exact absurd hs.1 hbad

theorem Steps.trace {c : Ctx} {bad : Prop} (hbad : ¬bad) {user : List Msg} {A : List Act}
    (hu : ∀ m, Act.userTx m ∈ A → m ∈ user) {w w' : W} (hs : Steps c bad A w w') :
    ∃ t, w'.out = w.out ++ t ∧ w'.ps = memAfter w.ps t ∧ (NickOk c w → NickOk c w' ∧ Always (OutOk c user) w.ps t) := by
  refine Steps.rel (R := fun w w' => ∃ t, w'.out = w.out ++ t ∧ w'.ps = memAfter w.ps t ∧
    (NickOk c w → NickOk c w' ∧ Always (OutOk c user) w.ps t)) ?_ ?_ ?_ hs
  · exact fun w => ⟨[], by simp, rfl, fun h => ⟨h, .nil⟩⟩
  · rintro w w' w'' ⟨t, h1, h2, h3⟩ ⟨t', h1', h2', h3'⟩
    refine ⟨t ++ t', by rw [h1', h1, List.append_assoc], by rw [h2', h2, memAfter_append], fun h => ?_⟩
    obtain ⟨h4, h5⟩ := h3 h
    obtain ⟨h6, h7⟩ := h3' h4
    rw [h2] at h7
    exact ⟨h6, .append h5 h7⟩
  · exact fun a ha w w' h => Step.trace hbad (fun m hm => hu m (hm ▸ ha)) h

/-- `init` does not use the nickname variable. -/
theorem init_nick (c : Ctx) (ok : Tmr → Bool) (w : W) (n : U8) :
    Core.init c ok { w with v := { w.v with nick := n } } = Core.init c ok w := by
  unfold Core.init Transport.init Dm.init
  cases h : Util.cyclicBufferInit (List.replicate c.loopbackNum (default : Msg))
      (BitVec.ofNat 8 (c.loopbackNum * c.sizeofMsg)) (BitVec.ofNat 8 c.sizeofMsg) <;>
    cases c.loopback <;> cases c.dm <;> cases c.dmPaged <;> rfl

theorem nodeActs_user (m : Msg) : Act.userTx m ∉ nodeActs := by
  simp [nodeActs, coreActs, eventActs, protoActs, writeActs]

/-- Only two kinds of steps change the matrix index register. -/
theorem Step.idx {c : Ctx} {bad : Prop} {a : Act} (ha : a ∈ nodeActs.filter (· ≠ .dmInit)) (hi : a ≠ .dmIdx) {w w' : W}
    (hs : Step c bad a w w') : w'.dm.idx = w.dm.idx := by
  have hd : a ≠ .dmInit := by simpa using (List.mem_filter.mp ha).2
  cases a with
  | tx =>
    obtain ⟨m, -, -, -, rfl⟩ := hs
    obtain ⟨tp, ub, t, ht, -⟩ := writeMessage_frame c m w
    rw [ht]
  | userTx m =>
    simp only [Step] at hs
    obtain ⟨tp, ub, t, ht, -⟩ := writeMessage_frame c m w
    rw [hs, ht]
  | lbRead =>
    obtain ⟨rx, -, rfl⟩ := hs
    obtain ⟨tp, ub, h⟩ := readMessage_frame' c rx w
    rw [h]
  | lbInit =>
    simp only [Step] at hs
    obtain ⟨tp, ub, h⟩ := tpInit_frame c w
    rw [hs, h]
  | restore => simp only [Step] at hs; rw [restore_run] at hs; subst hs; rfl
  | nick | seg | flags | page | ext | guid | sec | st s | event | timeUpdate | epochSet | tm t | rxVar | lg |
      tick | tmInit | initVars | alarmOr => obtain ⟨_, rfl⟩ := hs; rfl
  | user => obtain ⟨_, _, _, rfl⟩ := hs; rfl
  | boot => obtain ⟨_, _, rfl⟩ := hs; rfl
  | dmW | ngW => obtain ⟨_, _, _, _, rfl⟩ := hs; rfl
  | appWrite => obtain ⟨_, _, _, _, rfl⟩ := hs; rw [appWriteRegister_run]; rfl
  | appRead => obtain ⟨_, _, _, rfl⟩ := hs; rfl
  | ngVars | ist | protoEvent => obtain ⟨_, _, rfl⟩ := hs; rfl
  | action => obtain ⟨_, _, _, rfl⟩ := hs; rfl
  | resetReq => obtain ⟨_, rfl⟩ := hs; rfl
  | ub => obtain ⟨_, rfl⟩ := hs; rfl
  | dmInit => exact absurd rfl hd
  | dmIdx => exact absurd rfl hi
  | alarm | idleEntered | errorEntered | bootReq | customHb | hb | errClr =>
    simp only [Step] at hs; subst hs; rfl

/-- The trace of a history which begins with `init`. -/
theorem history_trace {c : Ctx} (hbad : ¬cfgBad c) (hc : c.loopback = true → Transport.LoopbackCfg c) (ok : Tmr → Bool)
    (ops : List Op) (hops : ∀ op ∈ ops, op.Ok) (w : W) :
    ∃ t, (runOps c (.init ok :: ops) w).out = w.out ++ t ∧ (runOps c (.init ok :: ops) w).ps = memAfter w.ps t ∧
      NickOk c (runOps c (.init ok :: ops) w) ∧ Always (OutOk c (userMsgs ops)) w.ps t ∧
      (runOps c (.init ok :: ops) w).ub = w.ub ∧ LbOk c (runOps c (.init ok :: ops) w) := by
  have e : runOps c (.init ok :: ops) w = runOps c ops (Core.init c ok { w with v := { w.v with
      nick := w.ps (Ps.addrNickname c) } }).2 := by
    rw [init_nick]; rfl
  rw [e]
  have h1 := Foot.coreInit (c := c) (bad := cfgBad c) ok { w with v := { w.v with nick := w.ps (Ps.addrNickname c) } }
  have h2 := init_lbOk hc ok { w with v := { w.v with nick := w.ps (Ps.addrNickname c) } }
  have h3 := runOps_steps hbad hc ops hops _ h2.1
  have h4 := h3.lbOk hbad hc h2.1
  obtain ⟨t1, a1, a2, a3⟩ := h1.trace hbad (user := userMsgs ops) (by intro m hm; simp at hm)
  obtain ⟨t2, b1, b2, b3⟩ := h3.trace hbad (user := userMsgs ops) (by
    intro m hm
    rcases List.mem_append.mp hm with hm | hm
    · exact absurd hm (nodeActs_user m)
    · simpa using hm)
  obtain ⟨a4, a5⟩ := a3 rfl
  obtain ⟨b4, b5⟩ := b3 a4
  refine ⟨t1 ++ t2, by rw [b1, a1, List.append_assoc], by rw [b2, a2, memAfter_append], b4, a5.append ?_,
    h4.2.trans h2.2, h4.1⟩
  rw [a2] at b5
  exact b5

end Vscp
