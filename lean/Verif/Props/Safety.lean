/-
Properties C19, C34, C45, C47: what holds for every history of calls.
-/
import Verif.Lemmas.Trace
import Verif.Example.Ctx

namespace Vscp.Safety
open Vscp.Spec M

/-- Configurations for which the behaviour is defined: the loopback storage fits in the `uint8_t` size of
its buffer, the matrix has at most 255 rows, and the uninitialised rule buffer of the decision matrix NG does not
happen to start with a number larger than 40. -/
structure GoodCfg (c : Ctx) : Prop where
  loopback : c.loopback = true → 1 ≤ c.loopbackNum ∧ 1 ≤ c.sizeofMsg ∧ c.loopbackNum * c.sizeofMsg ≤ 255
  rows : c.dm = true → c.dmRows ≤ 255
  stack : c.dmNg = true → (c.garbage 0).toNat ≤ 40

theorem GoodCfg.notBad {c : Ctx} (h : GoodCfg c) : ¬cfgBad c := by
  rintro (⟨h1, h2⟩ | ⟨h1, h2⟩)
  · have := h.rows h1; omega
  · have := h.stack h1; omega

theorem GoodCfg.lb {c : Ctx} (h : GoodCfg c) : c.loopback = true → Transport.LoopbackCfg c := fun hl =>
  ⟨(h.loopback hl).1, (h.loopback hl).2.1, (h.loopback hl).2.2⟩

theorem exGood : GoodCfg Ex.ctx := ⟨by decide, by decide, by decide⟩

/-- A node powered up with the given memory, initialised, and used by the given calls. -/
def node (c : Ctx) (ok : Tmr → Bool) (ps : Nat → U8) (ops : List Op) : W := runOps c (.init ok :: ops) (powerUp ps)

/-- All timers available. -/
def allOk : Tmr → Bool := fun _ => true

/-- A memory with nickname 5 and valid control flags `f` (for `Ex.ctx`, with boot loader flag). -/
def mem (f : U8) : Nat → U8 := fun a => if a = 1 then 5 else if a = 3 then f else 0

/-- The memory contents are determined by the trace. -/
theorem node_ps {c : Ctx} (h : GoodCfg c) (ok : Tmr → Bool) (ps : Nat → U8) (ops : List Op) (hops : ∀ op ∈ ops, op.Ok) :
    (node c ok ps ops).ps = memAfter ps (node c ok ps ops).out := by
  obtain ⟨t, h1, h2, -⟩ := history_trace h.notBad h.lb ok ops hops (powerUp ps)
  have : (node c ok ps ops).out = t := h1
  rw [this]; exact h2

theorem mem_userMsgs {ops : List Op} {m : Msg} (hm : m ∈ userMsgs ops) : .sendEvent m ∈ ops := by
  induction ops with
  | nil => simp [userMsgs] at hm
  | cons op ops ih =>
    rw [userMsgs_cons] at hm
    rcases List.mem_append.mp hm with hm | hm
    · cases op <;> simp [userMsgs] at hm; subst hm; simp
    · simp [ih hm]

/-- C45, partial: every frame transmitted is either one the application asked for, or has at most 8 data bytes, the
configured hard-coded flag, one of the 8 priorities, a class below 512, and as origin the nickname stored at that time.  Missing: a page write response (type 26 or 39)
behind a factory restore by this page write has the nickname of before, see `C45_violated`. -/
theorem C45_frames_partial {c : Ctx} (h : GoodCfg c) (ok : Tmr → Bool) (ps : Nat → U8) (ops : List Op)
    (hops : ∀ op ∈ ops, op.Ok) :
    Always (fun mem o => ∀ m r, o = .tx m r → .sendEvent m ∈ ops ∨
      ((m.oAddr = mem (Ps.addrNickname c) ∨ mem (Ps.addrNickname c) = 0xFF ∧ m.cls = 0 ∧ (m.typ = 26 ∨ m.typ = 39)) ∧
        m.hard = c.hardCoded ∧ m.prio.toNat < 8 ∧ m.cls.toNat < 512 ∧ m.size.toNat ≤ 8)) ps (node c ok ps ops).out := by
  obtain ⟨t, h1, -, -, h4, -⟩ := history_trace h.notBad h.lb ok ops hops (powerUp ps)
  have : (node c ok ps ops).out = t := h1
  rw [this]
  refine Always.mono h4 ?_
  rintro mem o ho m r rfl
  exact ho.imp_left mem_userMsgs

/-- The node of the example announces itself, answers a probe, and answers with its new nickname after it was changed. -/
example : ((node Ex.ctx allOk (mem 0x60) [.process none, .process (some (Ex.msg 0 2 9 [5])),
      .process (some (Ex.msg 0 6 0 [5, 8])), .process (some (Ex.msg 0 2 9 [8]))]).out.filterMap fun o =>
    match o with | .tx m _ => some (m.typ, m.oAddr, m.size) | _ => none) =
    [(2, 5, 1), (3, 5, 0), (7, 8, 0), (3, 8, 0)] := by decide +kernel

/-- C45 does not hold: a page write which completes a factory restore is answered with the nickname of before, while the
node has none any more. -/
theorem C45_violated : ∃ pre m r, (node Ex.ctx allOk (mem 0x60) [.process none,
      .process (some (Ex.msg 0 11 9 [5, 0xA2, 0x55])), .process (some (Ex.msg 0 25 9 [5, 0xA2, 0xAA]))]).out = pre ++ [.tx m r] ∧
    m.oAddr = 5 ∧ memAfter (mem 0x60) pre (Ps.addrNickname Ex.ctx) = 0xFF := by
  refine ⟨(node Ex.ctx allOk (mem 0x60) [.process none, .process (some (Ex.msg 0 11 9 [5, 0xA2, 0x55])),
    .process (some (Ex.msg 0 25 9 [5, 0xA2, 0xAA]))]).out.dropLast, ⟨3, 0, 26, 5, false, 2, bytes8 [0, 0]⟩, true, ?_, rfl, ?_⟩
  · decide +kernel
  · decide +kernel

/-- C34: after every history the nickname in use is the stored one. -/
theorem C34_nickname_stored {c : Ctx} (h : GoodCfg c) (ok : Tmr → Bool) (ps : Nat → U8) (ops : List Op)
    (hops : ∀ op ∈ ops, op.Ok) : (node c ok ps ops).v.nick = (node c ok ps ops).ps (Ps.addrNickname c) := by
  obtain ⟨t, -, -, h3, -⟩ := history_trace h.notBad h.lb ok ops hops (powerUp ps)
  exact h3

/-- The nickname after `init`: the stored one, or none after a factory restore because of invalid control flags. -/
theorem init_nickname (c : Ctx) (ok : Tmr → Bool) (w : W) : (Core.init c ok w).2.v.nick =
    if validStartUp (w.ps (Ps.addrFlags c)) = true then w.ps (Ps.addrNickname c) else 0xFF := by
  have key : ∀ f : U8, (if 0x01 ≠ (f >>> 6) &&& 0x03 ∧ 0x02 ≠ (f >>> 6) &&& 0x03 then false else true) = validStartUp f := by
    decide +kernel
  obtain ⟨tp, ub, ht⟩ := tpInit_frame c { w with tm := { rem := fun _ => 0, ok := ok } }
  unfold Core.init
  simp only [bind_run, modify_run, ht]
  have hd : ∀ w : W, ∃ d, (whenM (c.dm = true) (Dm.init c) w).2 = { w with dm := d } := by
    intro w
    unfold Dm.init
    cases c.dm <;> cases c.dmPaged <;> exact ⟨_, rfl⟩
  obtain ⟨d, hd⟩ := hd { w with tm := { rem := fun _ => 0, ok := ok }, tp := tp, ub := ub }
  simp only at hd
  rw [hd]
  simp only [Ps.readNickname, psRead8_run, setV_run, emit_run]
  generalize hw0 : (timerStart Tmr.epoch 1000 _).2 = w0
  have h1 : w0.ps = w.ps := by rw [← hw0, timerStart_run]; dsimp only; split <;> rfl
  have h2 : w0.v.nick = w.ps (Ps.addrNickname c) := by rw [← hw0, timerStart_run]; dsimp only; split <;> rfl
  clear hw0
  have hv : Core.checkPersistentMemory c w0 = (validStartUp (w.ps (Ps.addrFlags c)), w0) := by
    rw [← key, ← h1]; rfl
  have he : ∀ w : W, (Core.changeToStateError c w).2.v.nick = w.v.nick := by
    intro w
    simp only [Core.changeToStateError, bind_run, get_run, whenM_run, emit_run, setV_run]
    split
    · split <;> rfl
    · rfl
  have hif : ∀ (p : Prop) (_ : Decidable p) (w : W), (whenM p (Core.changeToStateError c) w).2.v.nick = w.v.nick := by
    intro p _ w
    rw [whenM_run]
    split
    · exact he w
    · rfl
  simp only [pure_run, hv, hif]
  simp only [whenM_run, restore_run]
  cases validStartUp (w.ps (Ps.addrFlags c))
  · rfl
  · exact h2

/-- C34: a power cycle after any history brings the node up with the nickname it was using, unless the stored
control flags are invalid (which makes the next start restore the factory settings). -/
theorem C34_power_cycle {c : Ctx} (h : GoodCfg c) (ok ok' : Tmr → Bool) (ps : Nat → U8) (ops : List Op)
    (hops : ∀ op ∈ ops, op.Ok) :
    (node c ok' (node c ok ps ops).ps []).v.nick =
      if validStartUp ((node c ok ps ops).ps (Ps.addrFlags c)) = true then (node c ok ps ops).v.nick else 0xFF := by
  rw [C34_nickname_stored h ok ps ops hops]
  exact init_nickname c ok' (powerUp (node c ok ps ops).ps)

/-- The nickname is changed from 5 to 8 and survives. -/
example : (node Ex.ctx allOk (mem 0x60) [.process none, .process (some (Ex.msg 0 6 0 [5, 8]))]).v.nick = 8 ∧
    (node Ex.ctx allOk (node Ex.ctx allOk (mem 0x60) [.process none, .process (some (Ex.msg 0 6 0 [5, 8]))]).ps []).v.nick = 8 ∧
    validStartUp ((node Ex.ctx allOk (mem 0x60) [.process none, .process (some (Ex.msg 0 6 0 [5, 8]))]).ps
      (Ps.addrFlags Ex.ctx)) = true := by
  decide +kernel

/-- C19: a byte of a decision matrix is written, and the application is asked to write a register, only
while the write-enable bit is set in the memory. -/
theorem C19_write_protection {c : Ctx} (h : GoodCfg c) (ok : Tmr → Bool) (ps : Nat → U8) (ops : List Op)
    (hops : ∀ op ∈ ops, op.Ok) :
    Always (fun mem o => (∀ a b, o = .psW a b → Ps.addrDm c ≤ a → writeEnable (mem (Ps.addrFlags c)) = true) ∧
      (∀ p a v r, o = .appWrite p a v r → writeEnable (mem (Ps.addrFlags c)) = true)) ps (node c ok ps ops).out := by
  obtain ⟨t, h1, -, -, h4, -⟩ := history_trace h.notBad h.lb ok ops hops (powerUp ps)
  have : (node c ok ps ops).out = t := h1
  rw [this]
  refine Always.mono h4 ?_
  intro mem o ho
  refine ⟨?_, ?_⟩
  · rintro a b rfl; exact ho.2
  · rintro p a v r rfl; exact ho

/-- The same write is done with the bit set (flags 0x60) and not done with the bit cleared (flags 0x40). -/
example : (node Ex.ctx allOk (mem 0x60) [.process none, .process (some (Ex.msg 0 11 9 [5, 0x10, 7]))]).out.contains
      (.appWrite 0 0x10 7 0x5A) = true ∧
    (node Ex.ctx allOk (mem 0x40) [.process none, .process (some (Ex.msg 0 11 9 [5, 0x10, 7]))]).out.all (fun o =>
      match o with | .appWrite .. => false | _ => true) = true := by decide +kernel

/-- C19, a single received event: with the bit cleared, and unless the event writes the control flags themselves,
neither a byte of the matrices nor the matrix index register changes and the application writes nothing. -/
theorem C19_event {c : Ctx} (h : GoodCfg c) (ok : Tmr → Bool) (ps : Nat → U8) (ops : List Op)
    (hops : ∀ op ∈ ops, op.Ok) (rx : Option Msg) (hrx : ∀ m, rx = some m → m.size.toNat ≤ 8)
    (w w' : W) (hw : w = node c ok ps ops) (hw' : w' = (Core.process c rx w).2)
    (hprot : writeEnable (w.ps (Ps.addrFlags c)) = false) :
    ∃ t, w'.out = w.out ++ t ∧ ((∃ b, .psW (Ps.addrFlags c) b ∈ t) ∨
      ((∀ a, Ps.addrDm c ≤ a → w'.ps a = w.ps a) ∧ w'.dm.idx = w.dm.idx ∧ ∀ p a v r, .appWrite p a v r ∉ t)) := by
  subst hw'
  obtain ⟨-, -, -, hn, -, -, hlb⟩ := history_trace h.notBad h.lb ok ops hops (powerUp ps)
  have hlb : LbOk c w := by rw [hw]; exact hlb
  have hs := process_steps hrx hlb
  -- steps of `process` do not include the initialisation of the matrix
  have hs' : Steps c (cfgBad c) (nodeActs.filter (· ≠ .dmInit)) w (Core.process c rx w).2 := by
    rw [process_split]
    refine Steps.trans ((preProcess_steps hrx w).mono (by decide)) ?_
    refine (Foot.dispatch ?_ ?_ ?_).mono (by decide) _
    · intro m hm h8
      rw [preProcess_rx] at hm
      have := (hlb.read rx hrx).2.2 m hm
      omega
    · exact fun h1 h2 => .inl ⟨h1, h2⟩
    · exact fun h1 h2 => .inr ⟨h1, h2⟩
  clear hs
  have key := Steps.rel (R := fun w w' => ∃ t, w'.out = w.out ++ t ∧ w'.ps = memAfter w.ps t ∧
      (NickOk c w → NickOk c w') ∧
      ((∃ b, .psW (Ps.addrFlags c) b ∈ t) ∨ (NickOk c w → writeEnable (w.ps (Ps.addrFlags c)) = false →
        writeEnable (w'.ps (Ps.addrFlags c)) = false ∧
        (∀ a, Ps.addrDm c ≤ a → w'.ps a = w.ps a) ∧ w'.dm.idx = w.dm.idx ∧ ∀ p a v r, .appWrite p a v r ∉ t))) ?_ ?_ ?_ hs'
  · obtain ⟨t, h1, -, -, h3⟩ := key
    refine ⟨t, h1, h3.imp_right fun h3 => (h3 ?_ hprot).2⟩
    rw [hw]; exact hn
  · exact fun w => ⟨[], by simp, rfl, id, .inr fun _ hp => ⟨hp, by simp⟩⟩
  · rintro w w' w'' ⟨t, h1, h2, hnn, h3⟩ ⟨t', h1', h2', hnn', h3'⟩
    refine ⟨t ++ t', by rw [h1', h1, List.append_assoc], by rw [h2', h2, memAfter_append], fun h => hnn' (hnn h), ?_⟩
    rcases h3 with ⟨b, hb⟩ | h3
    · exact .inl ⟨b, by simp [hb]⟩
    · rcases h3' with ⟨b, hb⟩ | h3'
      · exact .inl ⟨b, by simp [hb]⟩
      · refine .inr fun hn hp => ?_
        obtain ⟨q0, q1, q2, q3⟩ := h3 hn hp
        obtain ⟨r0, r1, r2, r3⟩ := h3' (hnn hn) q0
        refine ⟨r0, fun a ha => (r1 a ha).trans (q1 a ha), r2.trans q2, ?_⟩
        intro p a v r hm
        rcases List.mem_append.mp hm with hm | hm
        · exact q3 p a v r hm
        · exact r3 p a v r hm
  · intro a ha w w' hst
    have huser : ∀ m, a = .userTx m → m ∈ ([] : List Msg) := by
      rintro m rfl
      exact absurd (List.mem_filter.mp ha).1 (nodeActs_user m)
    obtain ⟨t, h1, h2, h3⟩ := Step.trace h.notBad (user := []) huser hst
    refine ⟨t, h1, h2, fun hn => (h3 hn).1, ?_⟩
    by_cases hfl : ∃ b, .psW (Ps.addrFlags c) b ∈ t
    · exact .inl hfl
    refine .inr fun hn hp => ?_
    have h5 := (h3 hn).2
    -- memory below the matrices and the flags are untouched
    have hmem : ∀ (t' : List Out) (ps : Nat → U8), (∀ b, .psW (Ps.addrFlags c) b ∉ t') →
        writeEnable (ps (Ps.addrFlags c)) = false → Always (OutOk c []) ps t' →
        memAfter ps t' (Ps.addrFlags c) = ps (Ps.addrFlags c) ∧ (∀ a, Ps.addrDm c ≤ a → memAfter ps t' a = ps a) ∧
          ∀ p a v r, .appWrite p a v r ∉ t' := by
      intro t'
      induction t' with
      | nil => intro ps _ _ _; exact ⟨rfl, fun _ _ => rfl, by simp⟩
      | cons o t' ih =>
        intro ps hno hpf hal
        have ho := hal [] o t' rfl
        have hal' := Always.right (t := [o]) hal
        have hflag : memAfter ps [o] (Ps.addrFlags c) = ps (Ps.addrFlags c) := by
          cases o <;> simp only [memAfter]
          rename_i a b
          rw [if_neg]
          intro he; exact hno b (by rw [he]; simp)
        obtain ⟨r1, r2, r3⟩ := ih (memAfter ps [o]) (fun b hb => hno b (by simp [hb])) (by rw [hflag]; exact hpf) hal'
        have e : memAfter ps (o :: t') = memAfter (memAfter ps [o]) t' := memAfter_append ps [o] t'
        refine ⟨by rw [e, r1, hflag], ?_, ?_⟩
        · intro x hx
          rw [e, r2 x hx]
          cases o <;> simp only [memAfter]
          rename_i a b
          rw [if_neg]
          intro he; subst he
          have := ho.2 hx
          simp only [memAfter] at this
          rw [hpf] at this
          exact absurd this (by simp)
        · intro p x v r hm
          rcases List.mem_cons.mp hm with hm | hm
          · subst hm
            have : writeEnable (ps (Ps.addrFlags c)) = true := ho
            rw [hpf] at this
            exact absurd this (by simp)
          · exact r3 p x v r hm
    obtain ⟨m1, m2, m3⟩ := hmem t w.ps (fun b hb => hfl ⟨b, hb⟩) hp h5
    refine ⟨by rw [h2, m1]; exact hp, fun a ha => by rw [h2]; exact m2 a ha, ?_, m3⟩
    by_cases hidx : a = .dmIdx
    · subst hidx
      exact absurd ((writeEnabled_iff _).mp hst.1) (by rw [hp]; simp)
    · exact Step.idx ha hidx hst

/-- C47: with a configuration for which behaviour is defined, no history of calls leads to undefined behaviour, and the
persistent memory is written only inside of its layout. -/
theorem C47_no_out_of_bounds_partial {c : Ctx} (h : GoodCfg c) (ok : Tmr → Bool) (ps : Nat → U8) (ops : List Op)
    (hops : ∀ op ∈ ops, op.Ok) :
    (node c ok ps ops).ub = false ∧ ∀ a b, .psW a b ∈ (node c ok ps ops).out → a < Ps.addrNext c := by
  obtain ⟨t, h1, -, -, h4, h5, -⟩ := history_trace h.notBad h.lb ok ops hops (powerUp ps)
  refine ⟨h5, ?_⟩
  intro a b hm
  have : (node c ok ps ops).out = t := h1
  rw [this] at hm
  obtain ⟨pre, post, he⟩ := List.append_of_mem hm
  exact (h4 pre _ post he).1

/-- C47 is violated: with a rule set which announces one rule of size 0, the rule is taken from uninitialised memory, and a
received event makes the node read outside of its rule buffer. -/
theorem C47_violated_uninitialised_rule : ∃ (c : Ctx) (ps : Nat → U8) (m : Msg),
    (c.loopback = true → 1 ≤ c.loopbackNum ∧ 1 ≤ c.sizeofMsg ∧ c.loopbackNum * c.sizeofMsg ≤ 255) ∧
    c.dmRows ≤ 255 ∧ m.size.toNat ≤ 8 ∧ (node c allOk ps [.process none, .process (some m)]).ub = true := by
  refine ⟨{ Ex.ctx with dm := false, garbage := fun i => if i = 0 then 0xFF else if i = 1 then 1 else
    if i % 3 = 0 then 0x21 else if i % 3 = 1 then 8 else 0x77 },
    fun a => if a = 1 then 5 else if a = 3 then 0x60 else if a = Ps.addrDmNg { Ex.ctx with dm := false } then 1 else 0,
    Ex.msg 20 3 9 [1, 2, 3], ?_⟩
  refine ⟨by decide, by decide, by decide, ?_⟩
  decide +kernel

end Vscp.Safety
