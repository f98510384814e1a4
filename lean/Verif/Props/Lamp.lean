/-
Property C86: the init lamp shows the state of the node.
-/
import Verif.Props.Callout

namespace Vscp.LampState
open M Spec Transport Safety Callout

theorem lampAfter_append (l : Lamp) (t t' : List Out) : lampAfter l (t ++ t') = lampAfter (lampAfter l t) t' := by
  induction t generalizing l with
  | nil => rfl
  | cons o t ih => cases o <;> exact ih _

/-- Calls which are not calls of the lamp. -/
theorem lampAfter_other {t : List Out} (h : ∀ o ∈ t, ∀ l, o ≠ .lamp l) (l : Lamp) : lampAfter l t = l := by
  induction t with
  | nil => rfl
  | cons o t ih =>
    have h' := ih fun o ho => h o (by simp [ho])
    cases o with
    | lamp x => exact absurd rfl (h _ (by simp) x)
    | _ => exact h'

/-- The lamp fits the state. -/
def Shows (w : W) : Prop := lampAfter .off w.out = lampOf w.v.st

theorem shows_step {c : Ctx} {bad : Prop} {a : Act} {w w' : W} (hs : Step c bad a w w') (h : Shows w) : Shows w' := by
  by_cases hst : ∃ s, a = .st s
  · obtain ⟨s, rfl⟩ := hst
    obtain ⟨hp, rfl⟩ := hs
    show lampAfter .off (w.out ++ lampCalls s) = lampOf s
    rw [lampAfter_append]
    cases s with
    | preActive =>
      show lampAfter .off w.out = _
      rw [h, hp rfl]; rfl
    | _ => rfl
  · by_cases hi : a = .initVars
    · subst hi
      obtain ⟨r, rfl⟩ := hs
      show lampAfter .off (w.out ++ [.lamp .blinkSlow]) = .blinkSlow
      rw [lampAfter_append]; rfl
    · have e : w'.v.st = w.v.st := hs.same .st (by cases a <;> first | exact absurd rfl hi | exact absurd ⟨_, rfl⟩ hst | rfl)
      obtain ⟨t, ht, ho⟩ := hs.outs
      unfold Shows
      rw [ht, lampAfter_append, lampAfter_other, e]
      · exact h
      · rintro o hm l rfl
        have := ho _ hm
        cases a <;> first | exact absurd ⟨_, rfl⟩ hst | exact absurd rfl hi | simp [Act.emits] at this

theorem shows_steps {c : Ctx} {bad : Prop} {A : List Act} {w w' : W} (hs : Steps c bad A w w') (h : Shows w) : Shows w' :=
  hs.inv (P := Shows) (fun _ _ _ _ hst hw => shows_step hst hw) h

theorem shows_init (c : Ctx) (ok : Tmr → Bool) (w : W) : Shows (Core.init c ok w).2 := by
  obtain ⟨w1, hi, hs⟩ := init_steps c ok w
  refine shows_steps hs ?_
  obtain ⟨r, hv⟩ := hi.v
  unfold Shows
  rw [hi.out, hv, lampAfter_append]; rfl

/-- C86: whatever happens, the lamp shows the state of the node: it blinks slowly after initialisation, fast as long as the node looks for
a nickname (with or without a segment master), is on if the node is active, and off if it is idle, waits for a reset or is out of order.
Also with calls in callbacks. -/
theorem C86_lamp {c : Ctx} (h : GoodCfg c) {cb : Callbacks} (hcb : CbOk cb) (ok : Tmr → Bool) (ps : Nat → U8) (ops : List Op)
    (hops : ∀ op ∈ ops, op.Ok) :
    lampAfter .off (nodeC c cb ok ps ops).out = lampOf (nodeC c cb ok ps ops).v.st := by
  have h0 : Shows (Core.init c ok (powerUp ps)).2 := shows_init c ok _
  obtain ⟨L, -, hs⟩ := runOpsC_steps h.notBad h.lb hcb ops hops (Core.init c ok (powerUp ps)).2 (init_lbOk h.lb ok _).1
  exact shows_steps hs h0

/-- C86: the lamp is on exactly if the node says that it is active. -/
theorem C86_active {c : Ctx} (h : GoodCfg c) {cb : Callbacks} (hcb : CbOk cb) (ok : Tmr → Bool) (ps : Nat → U8) (ops : List Op)
    (hops : ∀ op ∈ ops, op.Ok) :
    lampAfter .off (nodeC c cb ok ps ops).out = .on ↔ (Core.isActive (nodeC c cb ok ps ops)).1 = true := by
  rw [C86_lamp h hcb ok ps ops hops]
  show _ ↔ decide ((nodeC c cb ok ps ops).v.st = .active) = true
  rw [decide_eq_true_iff]
  cases (nodeC c cb ok ps ops).v.st <;> simp [lampOf]

/-- C86: the lamp is changed only with the state: a call which keeps the state keeps the lamp. -/
theorem C86_only {c : Ctx} (h : GoodCfg c) {cb : Callbacks} (hcb : CbOk cb) (ok : Tmr → Bool) (ps : Nat → U8) (ops : List Op) (op : Op)
    (hops : ∀ op ∈ ops, op.Ok) (hop : op.Ok)
    (hs : (nodeC c cb ok ps (ops ++ [op])).v.st = (nodeC c cb ok ps ops).v.st) :
    lampAfter .off (nodeC c cb ok ps (ops ++ [op])).out = lampAfter .off (nodeC c cb ok ps ops).out := by
  rw [C86_lamp h hcb ok ps ops hops, C86_lamp h hcb ok ps (ops ++ [op]) (fun o ho => by
    rcases List.mem_append.mp ho with ho | ho
    · exact hops o ho
    · rw [List.mem_singleton.mp ho]; exact hop), hs]

/-- A node with a nickname: slow, then on; told to look for a nickname it blinks fast. -/
example : lampAfter .off (node Ex.ctx allOk (mem 0x60) []).out = .blinkSlow ∧
    lampAfter .off (node Ex.ctx allOk (mem 0x60) [.process none]).out = .on ∧
    lampAfter .off (node Ex.ctx allOk (mem 0x60) [.process none, .startNodeSegmentInit]).out = .blinkFast ∧
    lampAfter .off (node Ex.ctx allOk (mem 0x60) [.process none, .process none]).out = .on := by decide +kernel

/-- The application begins the discovery in a callback. -/
example : lampAfter .off (nodeC Ex.ctx (fun w => if w.out.length = 4 then [.startNodeSegmentInit] else []) allOk (mem 0x60)
    [.process none, .process (some (Ex.msg 20 4 9 [1, 2, 3]))]).out = .blinkFast := by decide +kernel

end Vscp.LampState
