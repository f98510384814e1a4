/-
Property theorems: the nickname discovery ends whatever else is called (C32).
-/
import Verif.Props.Discovery

namespace Vscp.Discovery
open M Spec Transport Safety

/-- The node waits for an answer, and its timer is running. -/
def waits (d : Disc) : Prop := d.running = true ∧ (d.st = .preActive ∨ (d.st = .init ∧ (d.ist = .probeMasterWait ∨ d.ist = .probeWait)))

instance (d : Disc) : Decidable (waits d) := inferInstanceAs (Decidable (_ ∧ (_ ∨ (_ ∧ (_ ∨ _)))))

/-- A cycle. -/
theorem phi_process {c : Ctx} (htx : ∀ n, c.txOk n = true) (rx : Option Msg) (w : W) (hok : w.tm.ok .main = true)
    (hl : looking w) (hne : w.v.st = .init → w.v.ist = .probeWait → w.v.probe ≠ 0xFF) :
    ¬looking (Core.process c rx w).2 ∨
    (phi c (disc (Core.process c rx w).2) ≤ phi c (disc w) ∧ (¬waits (disc w) → phi c (disc (Core.process c rx w).2) < phi c (disc w))) := by
  have hs := c.startProbe.isLt
  obtain ⟨K, hK⟩ : ∃ K, K = c.probeAckTimeout.toNat + 2 := ⟨_, rfl⟩
  have hscan : (256 - c.startProbe.toNat) * K ≤ 256 * K := Nat.mul_le_mul_right _ (by omega)
  rcases hl with hst | hst
  · cases hist : w.v.ist with
    | probeMaster =>
      right
      rcases cycle_probeMaster c rx w hst hist with ⟨hf, -, -⟩ | ⟨-, -, hd⟩
      · rw [htx] at hf; cases hf
      · rw [hd]
        simp only [phi, disc, hst, hist, ← hK, hok, if_true, reduceCtorEq, if_false]
        omega
    | probeMasterWait =>
      obtain ⟨-, ⟨-, hd⟩ | ⟨hrn, hd | hd⟩⟩ := cycle_probeMasterWait c rx w hst hist
      · right
        rw [hd]
        simp only [phi, disc, hst, hist, ← hK, reduceCtorEq, if_false]
        omega
      · right
        rw [hd]
        simp only [phi, disc, hst, hist, ← hK, reduceCtorEq, if_false, if_true]
        omega
      · right
        rw [hd]
        exact ⟨Nat.le_refl _, fun h => absurd ⟨hrn, .inr ⟨hst, .inl hist⟩⟩ h⟩
    | probe =>
      rcases cycle_probe c rx w hst hist with ⟨hf, -, -⟩ | ⟨-, -, ⟨-, hd⟩ | ⟨hnf, hd⟩⟩
      · rw [htx] at hf; cases hf
      · left
        unfold looking
        rw [hd]
        simp
      · right
        rw [hd]
        have hlt := w.v.probe.isLt
        have : w.v.probe.toNat ≠ 255 := fun h => hnf (BitVec.eq_of_toNat_eq h)
        have e4 : 256 - w.v.probe.toNat = (255 - w.v.probe.toNat) + 1 := by omega
        simp only [phi, disc, hst, hist, hok, ← hK, reduceCtorEq, if_false, if_true]
        rw [e4, Nat.add_mul]
        omega
    | probeWait =>
      have hne := hne hst hist
      have hlt := w.v.probe.isLt
      have : w.v.probe.toNat ≠ 255 := fun h => hne (BitVec.eq_of_toNat_eq h)
      have hsucc : (w.v.probe + 1).toNat = w.v.probe.toNat + 1 := by
        rw [BitVec.toNat_add]
        show (_ + 1) % 256 = _
        omega
      rcases cycle_probeWait c rx w hst hist with ⟨-, ha, -, -⟩ | ⟨hrn, -, ⟨-, hd⟩ | ⟨-, hd⟩⟩
      · left
        unfold looking
        rw [ha]
        simp
      · right
        rw [hd]
        have e4 : 256 - (w.v.probe.toNat + 1) = 255 - w.v.probe.toNat := by omega
        simp only [phi, disc, hst, hist, hsucc, ← hK, reduceCtorEq, if_false, e4]
        omega
      · right
        rw [hd]
        exact ⟨Nat.le_refl _, fun h => absurd ⟨hrn, .inr ⟨hst, .inr hist⟩⟩ h⟩
  · rcases cycle_preActive c rx w hst with ⟨-, -, hd⟩ | ⟨hrn, ha | ⟨-, hd⟩⟩
    · right
      rw [hd]
      simp only [phi, disc, hst, ← hK, reduceCtorEq, if_false, if_true]
      omega
    · left
      unfold looking
      rw [ha]
      simp
    · right
      rw [hd]
      exact ⟨Nat.le_refl _, fun h => absurd ⟨hrn, .inl hst⟩ h⟩

/-- Another call; `ms` milliseconds pass in it. -/
theorem phi_op {c : Ctx} (d d' : Disc) (ms : Nat) (e1 : d'.st = d.st) (e2 : d'.ist = d.ist) (e3 : d'.probe = d.probe) (e4 : d'.ok = d.ok)
    (e5 : d'.rem.toNat = d.rem.toNat - ms) :
    phi c d' ≤ phi c d ∧ (¬waits d → ¬waits d') ∧ (1 ≤ ms → waits d → phi c d' < phi c d) := by
  have hz : d'.rem ≠ 0 → d.rem ≠ 0 := by
    intro h h0
    have : d'.rem.toNat = 0 := by rw [e5, h0]; simp
    exact h (BitVec.eq_of_toNat_eq this)
  refine ⟨?_, ?_, ?_⟩
  · unfold phi
    dsimp only
    rw [e1, e2, e3]
    split
    · omega
    · split <;> omega
  · intro h ⟨h1, h2⟩
    refine h ⟨?_, by rw [← e1, ← e2]; exact h2⟩
    unfold Disc.running at h1 ⊢
    rw [e4] at h1
    rw [Bool.and_eq_true] at h1 ⊢
    exact ⟨h1.1, by simpa using hz (by simpa using h1.2)⟩
  · rintro hms ⟨h1, h2⟩
    have hr : d.rem ≠ 0 := by
      unfold Disc.running at h1
      rw [Bool.and_eq_true] at h1
      simpa using h1.2
    have hr : d.rem.toNat ≠ 0 := fun h => hr (BitVec.eq_of_toNat_eq h)
    unfold phi
    dsimp only
    rw [e1, e2, e3]
    rcases h2 with h2 | ⟨h2, h3 | h3⟩
    · rw [if_pos h2, if_pos h2]; omega
    · rw [if_neg (by rw [h2]; decide), if_neg (by rw [h2]; decide), h3]; dsimp only; omega
    · rw [if_neg (by rw [h2]; decide), if_neg (by rw [h2]; decide), h3]; dsimp only; omega

theorem ite_mono {P Q : Prop} [Decidable P] [Decidable Q] (h : P → Q) : (if P then 1 else 0) ≤ (if Q then 1 else 0 : Nat) := by
  by_cases hp : P
  · rw [if_pos hp, if_pos (h hp)]; exact Nat.le_refl _
  · rw [if_neg hp]; exact Nat.zero_le _

/-- As long as a node looks for a nickname there are not more cycles behind some time than `phi`. -/
theorem phi_timed {c : Ctx} (htx : ∀ n, c.txOk n = true) (l : List Op) : ∀ (w : W) (b : Bool), w.tm.ok .main = true →
    (∀ op ∈ l, (∀ ok, op ≠ .init ok) ∧ op ≠ .startNodeSegmentInit) → (∀ l1 l2, l = l1 ++ l2 → looking (runOps c l1 w)) →
    (w.v.st = .init → w.v.ist = .probeWait → w.v.probe ≠ 0xFF) →
    timed b l ≤ phi c (disc w) + (if b = true ∧ waits (disc w) then 1 else 0) := by
  induction l with
  | nil => intro w b _ _ _ _; exact Nat.zero_le _
  | cons op l ih =>
    intro w b hok hops hl hne
    have hl0 : looking w := hl [] _ rfl
    have hl1 : looking (stepOp c op w).2 := hl [op] _ rfl
    have ih := ih (stepOp c op w).2
    have hops' : ∀ op ∈ l, (∀ ok, op ≠ .init ok) ∧ op ≠ .startNodeSegmentInit := fun o ho => hops o (List.mem_cons_of_mem _ ho)
    have hl' : ∀ l1 l2, l = l1 ++ l2 → looking (runOps c l1 (stepOp c op w).2) := fun l1 l2 e => hl (op :: l1) l2 (by rw [e]; rfl)
    by_cases hp : ∃ rx, op = .process rx
    · obtain ⟨rx, rfl⟩ := hp
      have e : (stepOp c (.process rx) w).2 = (Core.process c rx w).2 := rfl
      rw [e] at ih hl1 hl'
      have hok' : (Core.process c rx w).2.tm.ok .main = true := (congrFun (process_ok c rx w) _).trans hok
      have hne' : (Core.process c rx w).2.v.st = .init → (Core.process c rx w).2.v.ist = .probeWait → (Core.process c rx w).2.v.probe ≠ 0xFF := by
        intro h1 h2
        rcases hl0 with hst | hst
        · cases hist : w.v.ist with
          | probeMaster =>
            rcases cycle_probeMaster c rx w hst hist with ⟨-, -, hd⟩ | ⟨-, -, hd⟩ <;>
            · have := congrArg Disc.ist hd
              rw [show (disc (Core.process c rx w).2).ist = .probeWait from h2] at this
              simp [disc, hist] at this
          | probeMasterWait =>
            obtain ⟨-, ⟨-, hd⟩ | ⟨-, hd | hd⟩⟩ := cycle_probeMasterWait c rx w hst hist <;>
            · have := congrArg Disc.ist hd
              rw [show (disc (Core.process c rx w).2).ist = .probeWait from h2] at this
              simp [disc, hist] at this
          | probe =>
            rcases cycle_probe c rx w hst hist with ⟨-, -, hd⟩ | ⟨-, -, ⟨-, hd⟩ | ⟨hnf, hd⟩⟩
            · have := congrArg Disc.ist hd
              rw [show (disc (Core.process c rx w).2).ist = .probeWait from h2] at this
              simp [disc, hist] at this
            · rw [h1] at hd; cases hd
            · have : (Core.process c rx w).2.v.probe = w.v.probe := congrArg Disc.probe hd
              rw [this]; exact hnf
          | probeWait =>
            rcases cycle_probeWait c rx w hst hist with ⟨-, ha, -, -⟩ | ⟨-, -, ⟨-, hd⟩ | ⟨-, hd⟩⟩
            · rw [h1] at ha; cases ha
            · have := congrArg Disc.ist hd
              rw [show (disc (Core.process c rx w).2).ist = .probeWait from h2] at this
              cases this
            · have : (Core.process c rx w).2.v.probe = w.v.probe := congrArg Disc.probe hd
              rw [this]; exact hne hst hist
        · rcases cycle_preActive c rx w hst with ⟨-, -, hd⟩ | ⟨-, ha | ⟨-, hd⟩⟩
          · have := congrArg Disc.ist hd
            rw [show (disc (Core.process c rx w).2).ist = .probeWait from h2] at this
            cases this
          · rw [h1] at ha; cases ha
          · have := congrArg Disc.st hd
            rw [show (disc (Core.process c rx w).2).st = .init from h1, show (disc w).st = .preActive from hst] at this
            cases this
      have ih := ih false hok' hops' hl' hne'
      rw [if_neg (by simp)] at ih
      show (if b = true then 1 else 0) + timed false l ≤ _
      rcases phi_process htx rx w hok hl0 hne with h | ⟨h1, h2⟩
      · exact absurd hl1 h
      · by_cases hw : waits (disc w)
        · cases b <;> simp [hw] <;> omega
        · have := h2 hw
          cases b <;> simp [hw] <;> omega
    · have hp : ∀ rx, op ≠ .process rx := fun rx e => hp ⟨rx, e⟩
      obtain ⟨hi, hs⟩ := hops op List.mem_cons_self
      obtain ⟨hok', hdd⟩ := op_disc c op w hp hok fun ok e => absurd e (hi ok)
      have hd : (stepOp c op w).2.v.st = w.v.st ∧ (stepOp c op w).2.v.ist = w.v.ist ∧ (stepOp c op w).2.v.probe = w.v.probe ∧
          ((stepOp c op w).2.tm.rem .main).toNat = (w.tm.rem .main).toNat - elapsed [op] := by
        rcases op_look c op w hp with (h | h) | h
        · exact absurd hl1 h
        · exact absurd h.2 hs
        · exact h.2
      obtain ⟨d1, d2, d3, d4⟩ := hd
      have hphi := phi_op (c := c) (disc w) (disc (stepOp c op w).2) (elapsed [op]) d1 d2 d3 (hok'.trans hok.symm) d4
      obtain ⟨p1, p2, p3⟩ := hphi
      have hne' : (stepOp c op w).2.v.st = .init → (stepOp c op w).2.v.ist = .probeWait → (stepOp c op w).2.v.probe ≠ 0xFF := by
        rw [d1, d2, d3]; exact hne
      by_cases ht : ∃ ms, op = .tick ms
      · obtain ⟨ms, rfl⟩ := ht
        have ih := ih (b || decide (1 ≤ ms)) hok' hops' hl' hne'
        show timed (b || decide (1 ≤ ms)) l ≤ _
        refine Nat.le_trans ih ?_
        have e : elapsed [.tick ms] = ms := rfl
        rw [e] at p3
        by_cases hms : 1 ≤ ms
        · by_cases hw : waits (disc w)
          · have := p3 hms hw
            split <;> split <;> omega
          · have := p2 hw
            rw [if_neg (fun h => this h.2)]; omega
        · have : decide (1 ≤ ms) = false := by simpa using hms
          rw [this, Bool.or_false]
          exact Nat.add_le_add p1 (ite_mono fun h => ⟨h.1, Decidable.byContradiction fun hw => p2 hw h.2⟩)
      · have ht' : timed b (op :: l) = timed b l := by
          cases op <;> first | rfl | exact absurd rfl (hp _) | exact absurd ⟨_, rfl⟩ ht
        rw [ht']
        refine Nat.le_trans (ih b hok' hops' hl' hne') ?_
        exact Nat.add_le_add p1 (ite_mono fun h => ⟨h.1, Decidable.byContradiction fun hw => p2 hw h.2⟩)

/-- C32: with working transmission the discovery ends whatever is received and whatever else the application does (other than to initialise the node or to
start a discovery): after a bounded number of cycles with some time in front of each of them, however many others are between them,
the node has a nickname, or has given up. -/
theorem C32_ends_any {c : Ctx} (htx : ∀ n, c.txOk n = true) (ok : Tmr → Bool) (ps : Nat → U8) (ops : List Op) (hok : ok .main = true)
    (hi : ∀ ok', .init ok' ∈ ops → ok' .main = true) (l : List Op) (hl : ∀ op ∈ l, (∀ ok, op ≠ .init ok) ∧ op ≠ .startNodeSegmentInit)
    (hlen : 256 * (c.probeAckTimeout.toNat + 2) + 65540 < timed false l) :
    ∃ l1 l2, l = l1 ++ l2 ∧ ¬looking (node c ok ps (ops ++ l1)) := by
  have en : ∀ l1, node c ok ps (ops ++ l1) = runOps c l1 (node c ok ps ops) := fun l1 => by
    show runOps c (ops ++ l1) (node c ok ps []) = _
    rw [runOps_append]; rfl
  by_cases h : ∃ l1 l2, l = l1 ++ l2 ∧ ¬looking (node c ok ps (ops ++ l1))
  · exact h
  · exfalso
    have h : ∀ l1 l2, l = l1 ++ l2 → looking (runOps c l1 (node c ok ps ops)) := by
      intro l1 l2 e
      refine Decidable.byContradiction fun hn => h ⟨l1, l2, e, ?_⟩
      rw [en]; exact hn
    have hs : Search c (node c ok ps []) ops (disc (node c ok ps ops)) :=
      search c (node c ok ps []) (init_not_init c ok _) ((congrFun (init_ok c ok _) .main).trans hok) ops hi
    have := phi_timed htx l (node c ok ps ops) false hs.1 hl h fun h1 h2 => ((hs.2 h1).2 h2).1
    have := phi_bound c (disc (node c ok ps ops))
    simp at *
    omega

/-- The hypotheses of `C32_ends_any`: three cycles in each millisecond, and other calls. -/
example : looking (node { Ex.ctx with txOk := fun _ => true } allOk fresh [.process none]) ∧
    timed false [.tick 1, .process none, .process none, .setAlarm 1, .process none, .tick 0, .process none, .tick 1, .setAlarm 2, .process none] = 2 := by
  decide +kernel

end Vscp.Discovery
