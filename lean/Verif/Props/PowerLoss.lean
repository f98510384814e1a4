/-
Property theorems: a node which loses its power in the middle of a call has the settings from before the call, or those the event received in it makes
of them if it is cut short (C113).
-/
import Verif.Props.Settings
import Verif.Spec.PowerLoss

namespace Vscp.Sett
open M Vscp.Spec Vscp.Safety Vscp.Wear Vscp.LastWrite Transport
open DmProps (matrix)

theorem kept_congr {c : Cfg} {ps ps' : Nat → U8} (h : ∀ L, tracked c L → ps' L = ps L) : kept c ps' = kept c ps :=
  settings_congr (w := powerUp ps) (w' := powerUp ps') h rfl

theorem kept_eq (c : Cfg) (w : W) : kept c w.ps = (settings c w).saved := rfl

theorem memAfter_keep {L : Nat} {t : List Out} {ps : Nat → U8} (h : ∀ b, .psW L b ∉ t) : memAfter ps t L = ps L := by
  induction t generalizing ps with
  | nil => rfl
  | cons o t ih =>
    have ht : ∀ b, .psW L b ∉ t := fun b hb => h b (List.mem_cons_of_mem _ hb)
    cases o with
    | psW a b =>
      rw [memAfter, ih ht]
      rw [if_neg]
      rintro rfl
      exact h b (by simp)
    | _ => exact ih ht

/-- A part of the code in which the factory settings are not restored: whenever the power is lost, the settings satisfy `S`. -/
def Cut (c : Ctx) (S : Settings → Prop) (w w' : W) : Prop :=
  ∃ t, w'.out = w.out ++ t ∧ w'.ps = memAfter w.ps t ∧ .portRestore ∉ t ∧ ∀ k, S (kept c (memAfter w.ps (t.take k)))

/-- A part of the code which leaves the settings alone but for a restore. -/
def CutR (c : Ctx) (w w' : W) : Prop :=
  ∃ t, w'.out = w.out ++ t ∧ w'.ps = memAfter w.ps t ∧
    ∀ k, kept c (memAfter w.ps (t.take k)) = kept c w.ps ∨ (.portRestore ∈ t ∧ (kept c w.ps).Between c (kept c (memAfter w.ps (t.take k))))

theorem take_cases (ps : Nat → U8) (t t' : List Out) (k : Nat) :
    memAfter ps ((t ++ t').take k) = memAfter ps (t.take k) ∨
      memAfter ps ((t ++ t').take k) = memAfter (memAfter ps t) (t'.take (k - t.length)) := by
  by_cases h : k ≤ t.length
  · left; rw [List.take_append_of_le_length h]
  · right
    rw [List.take_append, List.take_of_length_le (by omega), memAfter_append]

theorem Cut.refl {c : Ctx} {S : Settings → Prop} {w : W} (h : S (kept c w.ps)) : Cut c S w w :=
  ⟨[], by simp, rfl, by simp, fun k => by rw [List.take_nil]; exact h⟩

theorem Cut.seq {c : Ctx} {S : Settings → Prop} {w w' w'' : W} (h : Cut c S w w') (h' : Cut c S w' w'') : Cut c S w w'' := by
  obtain ⟨t, h1, h2, h3, h4⟩ := h
  obtain ⟨t', h1', h2', h3', h4'⟩ := h'
  refine ⟨t ++ t', by rw [h1', h1, List.append_assoc], by rw [h2', h2, memAfter_append], fun h => (List.mem_append.mp h).elim h3 h3', fun k => ?_⟩
  rcases take_cases w.ps t t' k with e | e
  · rw [e]; exact h4 k
  · rw [e, ← h2]; exact h4' _

theorem Cut.mono {c : Ctx} {S S' : Settings → Prop} {w w' : W} (h : Cut c S w w') (hS : ∀ x, S x → S' x) : Cut c S' w w' := by
  obtain ⟨t, h1, h2, h3, h4⟩ := h
  exact ⟨t, h1, h2, h3, fun k => hS _ (h4 k)⟩

theorem Cut.end {c : Ctx} {S : Settings → Prop} {w w' : W} (h : Cut c S w w') : S (kept c w'.ps) := by
  obtain ⟨t, h1, h2, h3, h4⟩ := h
  have := h4 t.length
  rw [List.take_length, ← h2] at this
  exact this

theorem between_refl {c : Cfg} (ps : Nat → U8) : (kept c ps).Between c (kept c ps) :=
  ⟨.inl rfl, fun _ => .inl rfl, fun _ => .inl rfl, fun _ => .inl rfl, rfl⟩

theorem between_trans {c : Cfg} {s x y : Settings} (h : s.Between c x) (h' : x.Between c y) : s.Between c y := by
  obtain ⟨a1, a2, a3, a4, a5⟩ := h
  obtain ⟨b1, b2, b3, b4, b5⟩ := h'
  refine ⟨?_, fun i => ?_, fun i => ?_, fun i => ?_, b5⟩
  · rcases b1 with e | e
    · rw [e]; exact a1
    · right; rw [e]; rfl
  · rcases b2 i with e | e
    · rw [e]; exact a2 i
    · right; rw [e]; rfl
  · rcases b3 i with e | e
    · rw [e]; exact a3 i
    · rw [e]
      simp only [Settings.factory]
      split
      · right; rfl
      · rcases a3 i with e' | e'
        · exact .inl e'
        · left
          rw [e']
          simp only [Settings.factory]
          rw [if_neg ‹_›]
  · rcases b4 i with e | e
    · rw [e]; exact a4 i
    · right; rw [e]; rfl

theorem CutR.refl {c : Ctx} (w : W) : CutR c w w := ⟨[], by simp, rfl, fun k => by rw [List.take_nil]; exact .inl rfl⟩

theorem CutR.trans {c : Ctx} {w w' w'' : W} (h : CutR c w w') (h' : CutR c w' w'') : CutR c w w'' := by
  obtain ⟨t, h1, h2, h4⟩ := h
  obtain ⟨t', h1', h2', h4'⟩ := h'
  refine ⟨t ++ t', by rw [h1', h1, List.append_assoc], by rw [h2', h2, memAfter_append], fun k => ?_⟩
  rcases take_cases w.ps t t' k with e | e
  · rw [e]; exact (h4 k).imp id fun h => ⟨List.mem_append_left _ h.1, h.2⟩
  · rw [e, ← h2]
    have hend := h4 t.length
    rw [List.take_length, ← h2] at hend
    rcases h4' (k - t.length) with h | ⟨h, h'⟩
    · rw [h]
      exact hend.imp id fun h => ⟨List.mem_append_left _ h.1, h.2⟩
    · right
      refine ⟨List.mem_append_right _ h, ?_⟩
      rcases hend with he | ⟨-, he⟩
      · rw [he] at h'; exact h'
      · exact between_trans he h'

theorem Cut.cutR {c : Ctx} {w w' : W} (h : Cut c (· = kept c w.ps) w w') : CutR c w w' := by
  obtain ⟨t, h1, h2, -, h3⟩ := h
  exact ⟨t, h1, h2, fun k => .inl (h3 k)⟩

/-! ### Steps which leave the settings alone -/

theorem applyWrites_in {ps : Nat → U8} {l : List (Nat × U8)} {a : Nat} {P : U8 → Prop} (h : ∀ b, (a, b) ∈ l → P b) :
    applyWrites ps l a = ps a ∨ P (applyWrites ps l a) := by
  induction l generalizing ps with
  | nil => exact .inl rfl
  | cons x l ih =>
    obtain ⟨x1, x2⟩ := x
    have := ih (ps := fun y => if y = x1 then x2 else ps y) fun b hb => h b (List.mem_cons_of_mem _ hb)
    rcases this with e | e
    · by_cases hx : a = x1
      · right
        show P (applyWrites (fun y => if y = x1 then x2 else ps y) l a)
        rw [e]
        simp only [hx, if_true]
        exact h x2 (by simp [hx])
      · left
        show applyWrites (fun y => if y = x1 then x2 else ps y) l a = ps a
        rw [e]
        simp only [hx, if_false]
    · exact .inr e

theorem bytes_zero {a n : Nat} {x : Nat × U8} (h : x ∈ bytesAt a (List.replicate n 0)) : x.2 = 0 := by
  induction n generalizing a with
  | zero => simp [bytesAt] at h
  | succ n ih =>
    simp only [List.replicate_succ, bytesAt, List.mem_cons] at h
    rcases h with rfl | h
    · rfl
    · exact ih h

theorem mats_zero {c : Cfg} {x : Nat × U8} (h : x ∈ Restore.mats c) : x.2 = 0 := by
  unfold Restore.mats at h
  rcases List.mem_append.mp h with h | h
  · split at h
    · unfold Restore.dm at h
      obtain ⟨i, -, h⟩ := List.mem_flatMap.mp h
      rcases List.mem_append.mp h with h | h
      · split at h
        · exact bytes_zero h
        · simp at h
      · split at h
        · split at h
          · exact bytes_zero h
          · simp at h
        · simp at h
    · simp at h
  · split at h
    · unfold Restore.ng at h
      obtain ⟨i, -, h⟩ := List.mem_flatMap.mp h
      unfold idxW at h
      split at h
      · simp only [List.mem_singleton] at h
        rw [h]
      · simp at h
    · simp at h

theorem flags_only {c : Cfg} {b : U8} (h : (Ps.addrFlags c, b) ∈ Restore.all c) : b = 0xA0 := by
  have hl := Restore.layout_low c
  unfold Restore.all at h
  rw [Restore.rest_eq] at h
  simp only [List.mem_cons, List.mem_append] at h
  rcases h with h | h | h | h
  · have := (Prod.mk.inj h).1; omega
  · split at h
    · simp only [List.mem_singleton] at h
      have := (Prod.mk.inj h).1; omega
    · simp at h
  · exact (Prod.mk.inj h).2
  · have := Restore.from_t0 c _ h
    simp only at this
    omega

theorem user_only {c : Cfg} {b : U8} {i : Nat} (hi : i < 5) (h : (Ps.addrUserId c + i, b) ∈ Restore.all c) : b = 0 := by
  have hl := Restore.layout_low c
  unfold Restore.all at h
  rw [Restore.rest_eq] at h
  simp only [List.mem_cons, List.mem_append] at h
  rcases h with h | h | h | h
  · have := (Prod.mk.inj h).1; omega
  · split at h
    · simp only [List.mem_singleton] at h
      have := (Prod.mk.inj h).1; omega
    · simp at h
  · have := (Prod.mk.inj h).1; omega
  · unfold Restore.t0 at h
    rcases List.mem_append.mp h with h | h
    · obtain ⟨j, -, h⟩ := List.mem_flatMap.mp h
      unfold idxW at h
      split at h
      · simp only [List.mem_singleton] at h
        exact (Prod.mk.inj h).2
      · simp at h
    · have := Restore.from_t1 c _ h
      simp only at this
      omega

theorem restore_between {c : Ctx} (ps : Nat → U8) (k : Nat) : (kept c ps).Between c (kept c (applyWrites ps ((Restore.all c).take k))) := by
  have hin : ∀ {x : Nat × U8}, x ∈ (Restore.all c).take k → x ∈ Restore.all c := fun h => List.mem_of_mem_take h
  refine ⟨?_, fun i => ?_, fun i => ?_, fun i => ?_, rfl⟩
  · exact applyWrites_in (P := fun b => b = 0xA0) fun b hb => flags_only (hin hb)
  · show (if i < 5 then _ else _) = (if i < 5 then _ else _) ∨ (if i < 5 then _ else _) = 0
    by_cases hi : i < 5
    · simp only [if_pos hi]
      exact applyWrites_in (P := fun b => b = 0) fun b hb => user_only hi (hin hb)
    · simp only [if_neg hi, true_or]
  · show (if i < Ps.sizeDm c then _ else _) = (if i < Ps.sizeDm c then _ else _) ∨ (if i < Ps.sizeDm c then _ else _) =
      (if i < c.dmRows + 7 then 0 else (if i < Ps.sizeDm c then _ else _))
    by_cases hi : i < Ps.sizeDm c
    · simp only [if_pos hi]
      have hdm : c.dm = true := by
        cases h : c.dm with
        | true => rfl
        | false => unfold Ps.sizeDm at hi; rw [h] at hi; simp at hi
      have hs : Ps.sizeDm c = c.dmRows * 8 := by unfold Ps.sizeDm; rw [if_pos hdm]
      have key := applyWrites_in (ps := ps) (P := fun b => i < c.dmRows + 7 ∧ b = 0)
        fun b hb => (DmProps.dm_writes_iff c.toCfg hdm i (by omega) b).mp (hin hb)
      rcases key with e | ⟨e1, e2⟩
      · exact .inl e
      · right; rw [if_pos e1]; exact e2
    · simp only [if_neg hi, true_or]
  · show (if i < Ps.sizeDmNg c then _ else _) = (if i < Ps.sizeDmNg c then _ else _) ∨ (if i < Ps.sizeDmNg c then _ else _) = 0
    by_cases hi : i < Ps.sizeDmNg c
    · simp only [if_pos hi]
      refine applyWrites_in (P := fun b => b = 0) fun b hb => ?_
      have hm := Restore.layout_mono c.toCfg
      rcases DmProps.all_below c.toCfg _ (hin hb) with h | h
      · simp only at h; omega
      · exact mats_zero h
    · simp only [if_neg hi, true_or]

theorem take_traceOf (l : List (Nat × U8)) (k : Nat) : (traceOf l).take k = traceOf (l.take k) := by
  unfold traceOf
  rw [List.map_take]

theorem step_mem {c : Ctx} {x : Act} {w w' : W} (hst : Step c True x w w') : ∃ t, w'.out = w.out ++ t ∧ w'.ps = memAfter w.ps t := by
  by_cases hx : x.dry = true
  · obtain ⟨t, h1, h2⟩ := hst.outs
    refine ⟨t, h1, ?_⟩
    have h : w'.ps = w.ps := hst.same .ps (by cases x <;> first | rfl | exact absurd hx (by decide))
    rw [h]
    funext L
    exact (memAfter_keep fun b hb => dry_emits hx (h2 _ hb)).symm
  · have h' : Step c False x w w' := by
      cases x <;> first | exact hst | exact absurd rfl hx
    obtain ⟨t, h1, h2, -⟩ := Step.trace (fun h => h) (user := match x with | .userTx m => [m] | _ => []) (fun m hm => by subst hm; simp) h'
    exact ⟨t, h1, h2⟩

theorem step_cut {c : Ctx} {x : Act} (h : x.aside = true) {w w' : W} (hst : Step c True x w w') : CutR c w w' := by
  have hmem := step_mem hst
  by_cases hr : x = .restore
  · subst hr
    have hst' : w' = (Core.restoreFactoryDefaultSettings c w).2 := hst
    refine ⟨traceOf (Restore.all c) ++ [.appRestore, .portRestore], by rw [hst', restore_run], ?_, fun k => .inr ⟨by simp, ?_⟩⟩
    · rw [hst', restore_run, memAfter_append, memAfter_traceOf]
      rfl
    · rcases take_cases w.ps (traceOf (Restore.all c)) [.appRestore, .portRestore] k with e | e
      · rw [e, take_traceOf, memAfter_traceOf]
        exact restore_between w.ps k
      · rw [e, memAfter_traceOf]
        have : ∀ n ps, memAfter ps (([.appRestore, .portRestore] : List Out).take n) = ps := by
          intro n ps
          match n with
          | 0 => rfl
          | 1 => rfl
          | n + 2 => rw [List.take_of_length_le (by simp)]; rfl
        rw [this]
        have := restore_between (c := c) w.ps (Restore.all c).length
        rw [List.take_length] at this
        exact this
  · obtain ⟨t, h1, h2⟩ := hst.outs
    obtain ⟨t', h1', h3⟩ := hmem
    have e : t' = t := List.append_cancel_left (h1'.symm.trans h1)
    subst e
    refine ⟨t', h1, h3, fun k => .inl (kept_congr fun L hL => memAfter_keep fun b hb => ?_)⟩
    exact (aside_emits hL h).resolve_left hr b (h2 _ (List.mem_of_mem_take hb))

theorem steps_cut {c : Ctx} {A : List Act} {w w' : W} (hs : Steps c True A w w') (hA : A.all Act.aside = true) : CutR c w w' :=
  hs.rel (R := CutR c) CutR.refl (fun _ _ _ h h' => h.trans h') fun x hx _ _ hst => step_cut (List.all_eq_true.mp hA x hx) hst

/-- Parts without restore. -/
theorem CutR.cut {c : Ctx} {S : Settings → Prop} {w w' : W} (h : CutR c w w') (hn : Eff c id False w w') (hS : S (kept c w.ps)) : Cut c S w w' := by
  obtain ⟨t, h1, h2, h3⟩ := h
  obtain ⟨t', h1', hr, -⟩ := hn
  have e : t' = t := List.append_cancel_left (h1'.symm.trans h1)
  subst e
  refine ⟨t', h1, h2, hr, fun k => ?_⟩
  rw [(h3 k).resolve_right fun h => hr h.1]
  exact hS

theorem foot_cut {α : Type} {c : Ctx} {S : Settings → Prop} {A : List Act} {m : M α} (hf : Foot c True A m) (hA : A.all Act.aside = true) (hr : .restore ∉ A) (w : W)
    (hS : S (kept c w.ps)) : Cut c S w (m w).2 := (steps_cut (hf w) hA).cut (foot_eff hf hA hr w) hS

/-! ### Writing a register -/

/-- A write changes at most one byte of the settings, at one time. -/
theorem put_cut {c : Ctx} {S : Settings → Prop} {w w' : W} (L : Nat) (v : U8) (h1 : w'.out = w.out ++ [.psW L v]) (h2 : w'.ps = fun a => if a = L then v else w.ps a)
    (hS : S (kept c w.ps)) (hS' : S (kept c w'.ps)) : Cut c S w w' := by
  refine ⟨[.psW L v], h1, h2, by simp, fun k => ?_⟩
  match k with
  | 0 => exact hS
  | k + 1 =>
    rw [h2] at hS'
    rw [List.take_of_length_le (by simp)]
    exact hS'

theorem none_cut {c : Ctx} {S : Settings → Prop} {w w' : W} (h1 : w'.out = w.out) (h2 : w'.ps = w.ps) (hS : S (kept c w.ps)) : Cut c S w w' :=
  ⟨[], by simp [h1], h2, by simp, fun k => by rw [List.take_nil]; exact hS⟩

theorem writeIdx_two (a s i : Nat) (v : U8) (w : W) :
    (Ps.writeIdx a s i v w).2 = w ∨ ∃ L, (Ps.writeIdx a s i v w).2 = putPs L v w := by
  unfold Ps.writeIdx
  split
  · exact .inr ⟨_, rfl⟩
  · exact .inl rfl

/-- One write in the code of the decision matrices. -/
theorem outer_trace {c : Ctx} (hc : Plain c) (page : U16) (addr v : U8) (hv : ¬(page = 0 ∧ 0x80 ≤ addr.toNat)) (w : W) :
    ((Core.writeRegister c page addr v w).2.out = w.out ∧ (Core.writeRegister c page addr v w).2.ps = w.ps) ∨
    (∃ L, (Core.writeRegister c page addr v w).2.out = w.out ++ [.psW L v] ∧
      (Core.writeRegister c page addr v w).2.ps = fun a => if a = L then v else w.ps a) ∨
    ∃ t, (Core.writeRegister c page addr v w).2.out = w.out ++ t ∧ (Core.writeRegister c page addr v w).2.ps = memAfter w.ps t ∧
      .portRestore ∉ t ∧ ∀ L, tracked c L → ∀ b, .psW L b ∉ t := by
  by_cases he : writeEnable (w.ps (Ps.addrFlags c)) = false
  · rw [writeRegister_rejected (by unfold accepted; rw [if_neg hv]; exact he)]
    exact .inl ⟨rfl, rfl⟩
  have hacc : accepted c w page addr = true := by unfold accepted; rw [if_neg hv]; simpa using he
  by_cases hd : c.dm = true ∧ Dm.isDecisionMatrix c page addr = true
  · have hS := hc.dm hd.1
    obtain ⟨r, o, h1, h2⟩ := DmRegs.byte_eq hS.toStd hd.2
    rw [writeRegister_outer hv hacc]
    simp only
    rw [if_pos hd]
    unfold Dm.writeRegister
    rw [if_neg (by simp [hS.paged])]
    unfold Dm.writeRegisterStd
    rw [h1]
    simp only [bind_run]
    unfold Ps.readDm
    rw [readIdx_snd]
    unfold Ps.writeDm
    rcases writeIdx_two (Ps.addrDm c) (Ps.sizeDm c) _ v w with e | ⟨L, e⟩
    · rw [e]; exact .inl ⟨rfl, rfl⟩
    · rw [e]; exact .inr (.inl ⟨L, rfl, rfl⟩)
  · by_cases hg : c.dmNg = true ∧ DmNg.isDecisionMatrix c page addr = true
    · have hp : c.ngPage ≤ page.toNat := by
        have := hg.2
        unfold DmNg.isDecisionMatrix at this
        split at this
        · split at this
          · omega
          · cases this
        · cases this
      rw [writeRegister_outer hv hacc]
      simp only
      rw [if_neg hd, if_pos hg]
      unfold DmNg.writeRegister
      rw [if_pos hp]
      simp only [bind_run]
      unfold Ps.readDmNg
      rw [readIdx_snd]
      unfold Ps.writeDmNg
      rcases writeIdx_two (Ps.addrDmNg c) (Ps.sizeDmNg c) (DmNg.regIndex c page addr).toNat v w with e | ⟨L, e⟩
      · rw [e]; exact .inl ⟨rfl, rfl⟩
      · rw [e]; exact .inr (.inl ⟨L, rfl, rfl⟩)
    · right; right
      rw [writeRegister_app hacc (appServed_iff.2 ⟨hv, hd, hg⟩)]
      refine ⟨.appWrite page addr v (c.appWrite w.out.length w.ps page addr v) :: traceOf (Core.appStores c w.out.length page addr v), ?_, ?_, ?_, ?_⟩
      · unfold writeAll
        simp
      · unfold writeAll
        simp only [memAfter, memAfter_traceOf]
      · intro h
        simp [traceOf] at h
      · intro L hL b h
        simp only [List.mem_cons, traceOf, List.mem_map, reduceCtorEq, false_or] at h
        obtain ⟨x, hx, e⟩ := h
        have hxL := (Out.psW.inj e).1
        have hl := Restore.layout_low c.toCfg
        have hm := Restore.layout_mono c.toCfg
        have e3 : Ps.addrSubZone c = Ps.addrZone c + Ps.sizeZone c := rfl
        have e4 : Ps.addrManu c = Ps.addrSubZone c + Ps.sizeSubZone c := rfl
        unfold tracked at hL
        rcases appStores_mem c _ page addr v x hx with ⟨hz, ha⟩ | ⟨hz, ha⟩
        · rw [Ps.sizeZone, if_pos hz] at e3; omega
        · rw [Ps.sizeSubZone, if_pos hz] at e4; omega

theorem outer_cut {c : Ctx} (hc : Plain c) (page : U16) (addr v : U8) (hv : ¬(page = 0 ∧ 0x80 ≤ addr.toNat)) (w : W) {S : Settings → Prop}
    (hS : S (kept c w.ps)) (hS' : S (kept c (Core.writeRegister c page addr v w).2.ps)) : Cut c S w (Core.writeRegister c page addr v w).2 := by
  rcases outer_trace hc page addr v hv w with ⟨h1, h2⟩ | ⟨L, h1, h2⟩ | ⟨t, h1, h2, h3, h4⟩
  · exact none_cut h1 h2 hS
  · exact put_cut L v h1 h2 hS hS'
  · refine ⟨t, h1, h2, h3, fun k => ?_⟩
    rw [kept_congr fun L hL => memAfter_keep fun b hb => h4 L hL b (List.mem_of_mem_take hb)]
    exact hS

theorem vscp_cut {c : Ctx} (addr v : U8) (ha : 0x80 ≤ addr.toNat) (hr : addr.toNat ≠ 0xA2) (w : W) {S : Settings → Prop}
    (hS : S (kept c w.ps)) (hS' : S (kept c (Core.writeRegister c 0 addr v w).2.ps)) : Cut c S w (Core.writeRegister c 0 addr v w).2 := by
  have hlt := addr.isLt
  have h0 : (0 : U16) = 0 ∧ 0x80 ≤ addr.toNat ∧ addr.toNat ≤ 0xFF := ⟨rfl, ha, by omega⟩
  by_cases h83 : addr.toNat = 0x83
  · have e : addr = 0x83 := BitVec.eq_of_toNat_eq h83
    subst e
    exact put_cut (Ps.addrFlags c) v rfl rfl hS hS'
  by_cases hu : 0x84 ≤ addr.toNat ∧ addr.toNat ≤ 0x88
  · have e1 : Core.writeVscpRegister c addr v = (do
        Ps.writeUserId c (addr.toNat - 0x84) v
        let r ← Ps.readUserId c (addr.toNat - 0x84)
        pure (r, false)) := by
      unfold Core.writeVscpRegister
      dsimp only
      rw [if_neg h83, if_pos hu]
    have e2 : Ps.writeUserId c (addr.toNat - 0x84) v = psWrite8 (Ps.addrUserId c + (addr.toNat - 0x84)) v := by
      unfold Ps.writeUserId Ps.writeIdx
      rw [if_pos (show Ps.sizeUserId c > addr.toNat - 0x84 by unfold Ps.sizeUserId; omega)]
    have e3 : Ps.readUserId c (addr.toNat - 0x84) = psRead8 (Ps.addrUserId c + (addr.toNat - 0x84)) := by
      unfold Ps.readUserId Ps.readIdx
      rw [if_pos (show Ps.sizeUserId c > addr.toNat - 0x84 by unfold Ps.sizeUserId; omega)]
    have e : (Core.writeRegister c 0 addr v w).2 = putPs (Ps.addrUserId c + (addr.toNat - 0x84)) v w := by
      unfold Core.writeRegister
      rw [if_pos h0, e1, e2, e3]
      rfl
    refine put_cut (Ps.addrUserId c + (addr.toNat - 0x84)) v ?_ ?_ hS hS'
    · rw [e]; rfl
    · rw [e]; rfl
  by_cases h92 : addr.toNat = 0x92
  · have e : addr = 0x92 := BitVec.eq_of_toNat_eq h92
    subst e
    exact none_cut rfl rfl hS
  by_cases h93 : addr.toNat = 0x93
  · have e : addr = 0x93 := BitVec.eq_of_toNat_eq h93
    subst e
    exact none_cut rfl rfl hS
  · have e : Core.writeRegister c 0 addr v w = ((0, true), w) := by
      unfold Core.writeRegister
      rw [if_pos h0]
      unfold Core.writeVscpRegister
      rw [if_neg h83, if_neg hu, if_neg h92, if_neg h93, if_neg hr]
      rfl
    rw [e]
    exact Cut.refl hS

theorem Eff.kept {c : Ctx} {f : Settings → Settings} {w w' : W} (h : Eff c f False w w') : kept c w'.ps = (f (settings c w)).saved := by
  obtain ⟨t, h1, h2, h3⟩ := h
  rw [kept_eq, h3, if_neg h2]

/-- Any register but that of the factory restore: the settings are those before, or those after. -/
theorem write_cut {c : Ctx} (hc : Plain c) (page : U16) (addr v : U8) (hr : ¬(page.toNat = 0 ∧ addr.toNat = 0xA2)) (w : W) {S : Settings → Prop}
    (hS : S (settings c w).saved) (hS' : S ((settings c w).write c page.toNat addr.toNat v).saved) : Cut c S w (Core.writeRegister c page addr v w).2 := by
  rw [← (write_eff hc page addr v hr w).kept] at hS'
  by_cases hv : page = 0 ∧ 0x80 ≤ addr.toNat
  · obtain ⟨rfl, ha⟩ := hv
    exact vscp_cut addr v ha (fun h => hr ⟨rfl, h⟩) w hS hS'
  · exact outer_cut hc page addr v hv w hS hS'

/-- The register which restores the factory settings. -/
theorem restore_cut {c : Ctx} (v : U8) (w : W) : CutR c w (Core.writeRegister c 0 0xA2 v w).2 := by
  have hf : Foot c True [.tm .reg162, .restore] (Core.writeRegister c 0 0xA2 v) := by
    have e : Core.writeRegister c 0 0xA2 v = (do Core.writeRestoreStdCfg c v; pure (0, false)) := rfl
    rw [e]
    refine .bind ?_ fun _ => .pure _
    unfold Core.writeRestoreStdCfg
    exact .bind (.timerRunning _) fun _ => .ite (fun _ => .timerStart _ (by decide)) fun _ =>
      .ite (fun _ => .bind (.timerStop (by decide)) fun _ => .restore (by decide)) fun _ => .pure _
  exact steps_cut (hf w) (by decide)

/-! ### Writing pages -/

theorem pageLoop_cut {c : Ctx} (hc : Plain c) (m : Msg) (r : U8) (n i : Nat) (acc : List U8) (w : W) (hr : r.toNat + i + n ≤ 256) (hm : 2 + i + n ≤ 8)
    (hq : (w.v.page.toNat ≠ 0 ∧ 0x94 ≤ r.toNat + i) ∨ r.toNat + i + n ≤ 0xA2) {S : Settings → Prop}
    (hS : ∀ j, j ≤ n → S ((settings c w).writeSelected c (r.toNat + i) (vals m (2 + i) j)).saved) :
    Cut c S w (Core.pageWriteLoop c m r n i acc w).2 := by
  induction n generalizing i acc w with
  | zero => exact Cut.refl (by have := hS 0 (Nat.le_refl _); rw [kept_eq]; simpa [vals, Settings.writeSelected] using this)
  | succ n ih =>
    have e : Core.pageWriteLoop c m r (n + 1) i acc w =
        (Core.writeRegister c w.v.page (r + BitVec.ofNat 8 i) (m.data.toList.getD (2 + i) 0) >>= fun x =>
          Core.pageWriteLoop c m r n (i + 1) (acc ++ [x.1])) w := by
      rw [Core.pageWriteLoop, bind_run, get_run]
      dsimp only
      rw [bind_run, dataAt_run m _ (by omega)]
    rw [e, bind_run]
    have hra : ¬(w.v.page.toNat = 0 ∧ (r + BitVec.ofNat 8 i).toNat = 0xA2) := by rw [add_idx hr]; omega
    have h1 := write_eff hc w.v.page (r + BitVec.ofNat 8 i) (m.data.toList.getD (2 + i) 0) hra w
    have step : ∀ j, (settings c w).writeSelected c (r.toNat + i) (vals m (2 + i) (j + 1)) =
        (settings c (Core.writeRegister c w.v.page (r + BitVec.ofNat 8 i) (m.data.toList.getD (2 + i) 0) w).2).writeSelected c (r.toNat + (i + 1)) (vals m (2 + (i + 1)) j) := by
      intro j
      obtain ⟨t, -, h2, h3⟩ := h1
      rw [h3, if_neg h2, add_idx hr, vals_succ m (by omega), Settings.writeSelected, if_pos (by omega)]
      rfl
    have hpg := h1.page
    rw [add_idx hr] at hpg
    refine (write_cut hc w.v.page (r + BitVec.ofNat 8 i) (m.data.toList.getD (2 + i) 0) hra w ?_ ?_).seq (ih (i + 1) _ _ (by omega) (by omega) ?_ fun j hj => ?_)
    · have := hS 0 (by omega)
      simpa [vals, Settings.writeSelected] using this
    · have h := hS 1 (by omega)
      rw [step 0] at h
      have e0 : ∀ (s : Settings) (x k : Nat), s.writeSelected c x (vals m k 0) = s := by intro s x k; simp [vals, Settings.writeSelected]
      rw [e0] at h
      obtain ⟨t, -, h2, h3⟩ := h1
      rw [h3, if_neg h2] at h
      exact h
    · rcases hq with ⟨q1, q2⟩ | q
      · left
        rw [hpg, write_page q1]
        exact ⟨q1, by omega⟩
      · right; omega
    · rw [← step j]
      exact hS (j + 1) (by omega)

theorem pageLoop_cutR {c : Ctx} (hc : Plain c) (m : Msg) (r : U8) (n i : Nat) (acc : List U8) (w : W) (hr : r.toNat + i + n ≤ 256) (hm : 2 + i + n ≤ 8)
    (hp : w.v.page = 0) (hq : 0x94 ≤ r.toNat + i) : CutR c w (Core.pageWriteLoop c m r n i acc w).2 := by
  induction n generalizing i acc w with
  | zero => exact CutR.refl w
  | succ n ih =>
    have e : Core.pageWriteLoop c m r (n + 1) i acc w =
        (Core.writeRegister c 0 (r + BitVec.ofNat 8 i) (m.data.toList.getD (2 + i) 0) >>= fun x =>
          Core.pageWriteLoop c m r n (i + 1) (acc ++ [x.1])) w := by
      rw [Core.pageWriteLoop, bind_run, get_run]
      dsimp only
      rw [bind_run, dataAt_run m _ (by omega), hp]
    rw [e, bind_run]
    have h1 : CutR c w (Core.writeRegister c 0 (r + BitVec.ofNat 8 i) (m.data.toList.getD (2 + i) 0) w).2 := by
      by_cases h : (r + BitVec.ofNat 8 i).toNat = 0xA2
      · have : r + BitVec.ofNat 8 i = 0xA2 := BitVec.eq_of_toNat_eq h
        rw [this]
        exact restore_cut _ w
      · refine (write_cut hc 0 (r + BitVec.ofNat 8 i) (m.data.toList.getD (2 + i) 0) (fun e => h e.2) w (S := (· = kept c w.ps)) rfl ?_).cutR
        show ((settings c w).write c 0 _ _).saved = _
        rw [write_high (by rw [add_idx hr]; omega)]
        rfl
    refine h1.trans (ih (i + 1) _ _ (by omega) (by omega) ?_ (by omega))
    have h2 : Eff c id True w (Core.writeRegister c 0 (r + BitVec.ofNat 8 i) (m.data.toList.getD (2 + i) 0) w).2 := by
      by_cases h : (r + BitVec.ofNat 8 i).toNat = 0xA2
      · have : r + BitVec.ofNat 8 i = 0xA2 := BitVec.eq_of_toNat_eq h
        rw [this]
        exact restore_eff _ w
      · refine ((write_eff hc 0 (r + BitVec.ofNat 8 i) (m.data.toList.getD (2 + i) 0) (fun e => h e.2) w).mono fun h => h.elim).eq ?_
        exact write_high (by rw [add_idx hr]; omega) _
    obtain ⟨t, -, -, h3⟩ := h2
    have h4 := congrArg Settings.page h3
    apply BitVec.eq_of_toNat_eq
    have h5 : (settings c w).page = 0 := by show w.v.page.toNat = 0; rw [hp]; rfl
    refine Eq.trans (b := (settings c (Core.writeRegister c 0 (r + BitVec.ofNat 8 i) (m.data.toList.getD (2 + i) 0) w).2).page) rfl ?_
    rw [h4]
    split
    · rfl
    · exact h5

theorem extLoop_cut {c : Ctx} (hc : Plain c) (m : Msg) (page : U16) (r : U8) (n i : Nat) (acc : List U8) (w : W) (hr : r.toNat + i + n ≤ 256) (hm : 4 + i + n ≤ 8)
    (hq : page.toNat ≠ 0 ∨ r.toNat + i + n ≤ 0xA2) {S : Settings → Prop}
    (hS : ∀ j, j ≤ n → S ((settings c w).writePage c page.toNat (r.toNat + i) (vals m (4 + i) j)).saved) :
    Cut c S w (Core.extWriteLoop c m page r n i acc w).2 := by
  induction n generalizing i acc w with
  | zero => exact Cut.refl (by have := hS 0 (Nat.le_refl _); rw [kept_eq]; simpa [vals, Settings.writePage] using this)
  | succ n ih =>
    have e : Core.extWriteLoop c m page r (n + 1) i acc w =
        (Core.writeRegister c page (r + BitVec.ofNat 8 i) (m.data.toList.getD (4 + i) 0) >>= fun x =>
          Core.extWriteLoop c m page r n (i + 1) (acc ++ [x.1])) w := by
      rw [Core.extWriteLoop, bind_run, dataAt_run m _ (by omega)]
    rw [e, bind_run]
    have hra : ¬(page.toNat = 0 ∧ (r + BitVec.ofNat 8 i).toNat = 0xA2) := by rw [add_idx hr]; omega
    have h1 := write_eff hc page (r + BitVec.ofNat 8 i) (m.data.toList.getD (4 + i) 0) hra w
    have step : ∀ j, (settings c w).writePage c page.toNat (r.toNat + i) (vals m (4 + i) (j + 1)) =
        (settings c (Core.writeRegister c page (r + BitVec.ofNat 8 i) (m.data.toList.getD (4 + i) 0) w).2).writePage c page.toNat (r.toNat + (i + 1)) (vals m (4 + (i + 1)) j) := by
      intro j
      obtain ⟨t, -, h2, h3⟩ := h1
      rw [h3, if_neg h2, add_idx hr, vals_succ m (by omega), Settings.writePage, if_pos (by omega)]
      rfl
    refine (write_cut hc page (r + BitVec.ofNat 8 i) (m.data.toList.getD (4 + i) 0) hra w ?_ ?_).seq (ih (i + 1) _ _ (by omega) (by omega) (by omega) fun j hj => ?_)
    · have := hS 0 (by omega)
      simpa [vals, Settings.writePage] using this
    · have h := hS 1 (by omega)
      rw [step 0] at h
      have e0 : ∀ (s : Settings) (x k : Nat), s.writePage c page.toNat x (vals m k 0) = s := by intro s x k; simp [vals, Settings.writePage]
      rw [e0] at h
      obtain ⟨t, -, h2, h3⟩ := h1
      rw [h3, if_neg h2] at h
      exact h
    · rw [← step j]
      exact hS (j + 1) (by omega)

theorem extLoop_cutR {c : Ctx} (hc : Plain c) (m : Msg) (r : U8) (n i : Nat) (acc : List U8) (w : W) (hr : r.toNat + i + n ≤ 256) (hm : 4 + i + n ≤ 8)
    (hq : 0x94 ≤ r.toNat + i) : CutR c w (Core.extWriteLoop c m 0 r n i acc w).2 := by
  induction n generalizing i acc w with
  | zero => exact CutR.refl w
  | succ n ih =>
    have e : Core.extWriteLoop c m 0 r (n + 1) i acc w =
        (Core.writeRegister c 0 (r + BitVec.ofNat 8 i) (m.data.toList.getD (4 + i) 0) >>= fun x =>
          Core.extWriteLoop c m 0 r n (i + 1) (acc ++ [x.1])) w := by
      rw [Core.extWriteLoop, bind_run, dataAt_run m _ (by omega)]
    rw [e, bind_run]
    have h1 : CutR c w (Core.writeRegister c 0 (r + BitVec.ofNat 8 i) (m.data.toList.getD (4 + i) 0) w).2 := by
      by_cases h : (r + BitVec.ofNat 8 i).toNat = 0xA2
      · have : r + BitVec.ofNat 8 i = 0xA2 := BitVec.eq_of_toNat_eq h
        rw [this]
        exact restore_cut _ w
      · refine (write_cut hc 0 (r + BitVec.ofNat 8 i) (m.data.toList.getD (4 + i) 0) (fun e => h e.2) w (S := (· = kept c w.ps)) rfl ?_).cutR
        show ((settings c w).write c 0 _ _).saved = _
        rw [write_high (by rw [add_idx hr]; omega)]
        rfl
    exact h1.trans (ih (i + 1) _ _ (by omega) (by omega) (by omega))

/-! ### Events -/

/-- What the memory holds if the power is lost while the event is dealt with. -/
def CutShort (c : Ctx) (nick : U8) (m : Msg) (s x : Settings) : Prop := ∃ y, s.Part c nick m y ∧ x = y.saved

theorem part_none {c : Ctx} {nick : U8} {m : Msg} {s : Settings} : s.Part c nick m s := by
  unfold Settings.Part
  split
  · exact ⟨0, rfl⟩
  · exact .inl rfl

theorem part_all {c : Ctx} {nick : U8} {m : Msg} {s : Settings} : s.Part c nick m (s.event c nick m) := by
  unfold Settings.Part
  split
  · exact ⟨(payload m).length, by rw [List.take_length]; rfl⟩
  · exact .inr rfl

theorem CutShort.none {c : Ctx} {nick : U8} {m : Msg} {s : Settings} : CutShort c nick m s s.saved := ⟨s, part_none, rfl⟩

theorem CutShort.all {c : Ctx} {nick : U8} {m : Msg} {s : Settings} : CutShort c nick m s (s.event c nick m).saved := ⟨_, part_all, rfl⟩

theorem Cut.when {c : Ctx} {S : Settings → Prop} {p : Prop} [Decidable p] {m : M Unit} {w : W} (h : p → Cut c S w (m w).2) (hS : S (kept c w.ps)) :
    Cut c S w (whenM p m w).2 := by
  rw [whenM_run]
  by_cases hp : p
  · rw [if_pos hp]
    exact h hp
  · rw [if_neg hp]
    exact Cut.refl hS

theorem tx_cut {c : Ctx} {S : Settings → Prop} (nick prio typ : U8) (l : List U8) (w : W) (hS : S (kept c w.ps)) : Cut c S w (Core.txFrom c nick prio typ l w).2 := by
  obtain ⟨tp, ub, t, h, ht⟩ := writeMessage_frame c ⟨prio, Transport.CLASS_PROTOCOL, typ, nick, c.hardCoded, BitVec.ofNat 8 l.length, bytes8 l⟩ w
  have e : (Core.txFrom c nick prio typ l w).2 = { w with tp := tp, ub := ub, out := w.out ++ t } := h
  have hn : .portRestore ∉ t := by rcases ht with rfl | ⟨rfl, -⟩ <;> simp
  have hp : ∀ L b, .psW L b ∉ t := by intro L b; rcases ht with rfl | ⟨rfl, -⟩ <;> simp
  refine ⟨t, by rw [e], ?_, hn, fun k => ?_⟩
  · rw [e]
    funext L
    exact (memAfter_keep (hp L)).symm
  · rw [kept_congr fun L _ => memAfter_keep fun b hb => hp L b (List.mem_of_mem_take hb)]
    exact hS

theorem rsp_cut {c : Ctx} {S : Settings → Prop} (p : Prop) [Decidable p] (addr v : U8) (w : W) (hS : S (kept c w.ps)) :
    Cut c S w (whenM p (Core.sendRegisterReadWriteRsp c addr v) w).2 :=
  foot_cut (A := [.tx]) (.whenM fun _ => .sendRegisterReadWriteRsp (by decide)) (by decide) (by decide) w hS

theorem Cut.tx {c : Ctx} {S : Settings → Prop} {w w' : W} (h : Cut c S w w') (nick prio typ : U8) (l : List U8) : Cut c S w (Core.txFrom c nick prio typ l w').2 :=
  h.seq (tx_cut nick prio typ l w' h.end)

theorem CutR.tx {c : Ctx} {w w' : W} (h : CutR c w w') (nick prio typ : U8) (l : List U8) : CutR c w (Core.txFrom c nick prio typ l w').2 :=
  h.trans (tx_cut (S := (· = kept c w'.ps)) nick prio typ l w' rfl).cutR

/-- What an event does: it changes nothing but for a restore; or the settings are always those of the event cut short. -/
def Either (c : Ctx) (m : Msg) (w w' : W) : Prop :=
  (CutR c w w' ∧ (settings c w).event c w.v.nick m = settings c w) ∨ (Cut c (CutShort c w.v.nick m (settings c w)) w w')

theorem Either.when {c : Ctx} {m : Msg} {p : Prop} [Decidable p] {a : M Unit} {w : W} (h : p → Either c m w (a w).2) : Either c m w (whenM p a w).2 := by
  rw [whenM_run]
  by_cases hp : p
  · rw [if_pos hp]
    exact h hp
  · rw [if_neg hp]
    exact .inr (Cut.refl CutShort.none)

theorem write0_either {c : Ctx} (hc : Plain c) (m : Msg) (addr v : U8) (w : W) {w' : W} (hps : w'.ps = w.ps) (hpg : w'.v.page = w.v.page)
    (he : (settings c w).event c w.v.nick m = (settings c w).write c 0 addr.toNat v) (h : Cut c (· = kept c w.ps) w w') :
    Either c m w (Core.writeRegister c 0 addr v w').2 := by
  have es : settings c w' = settings c w := settings_congr (fun L _ => by rw [hps]) hpg
  by_cases hr : addr.toNat = 0xA2
  · left
    have : addr = 0xA2 := BitVec.eq_of_toNat_eq hr
    subst this
    exact ⟨h.cutR.trans (restore_cut v w'), by rw [he, write_high (by decide)]⟩
  · right
    refine (h.mono fun x hx => ?_).seq (write_cut hc 0 addr v (fun e => hr e.2) w' ?_ ?_)
    · rw [hx]; exact CutShort.none
    · rw [es]; exact CutShort.none
    · rw [es]
      exact ⟨_, part_all, by rw [he]; rfl⟩

theorem Either.seq {c : Ctx} {m : Msg} {w w' w'' : W} (h : Either c m w w') (h' : ∀ S : Settings → Prop, S (kept c w'.ps) → Cut c S w' w'') : Either c m w w'' := by
  rcases h with ⟨h1, h2⟩ | h
  · exact .inl ⟨h1.trans (h' (· = kept c w'.ps) rfl).cutR, h2⟩
  · exact .inr (h.seq (h' _ h.end))

/-- A register is read and written. -/
theorem modify_either {c : Ctx} (hc : Plain c) (m : Msg) (addr : U8) (g : U8 → U8) (w : W)
    (he : (settings c w).event c w.v.nick m = (settings c w).modify c addr.toNat g) :
    Either c m w ((do
        let v ← Core.readRegister c 0 addr
        let r ← Core.writeRegister c 0 addr (g v)
        whenM (r.2 = false) (Core.sendRegisterReadWriteRsp c addr r.1)) w).2 := by
  have e : (settings c w).write c 0 addr.toNat (g (Core.readRegister c 0 addr w).1) = (settings c w).modify c addr.toNat g := by
    unfold Settings.modify
    cases hr : (settings c w).read c 0 addr.toNat with
    | none => exact write_unread hr _
    | some v =>
      rw [read_val hc (page := 0) hr]
  have hf := (Foot.readRegister (List.Subset.refl _) : Foot c True [.alarm, .appRead] (Core.readRegister c 0 addr)) w
  have e2 : (Core.readRegister c 0 addr w).2.ps = w.ps := hf.same .ps (by decide)
  have e3 : (Core.readRegister c 0 addr w).2.v.page = w.v.page := hf.same .page (by decide)
  rw [bind_run, bind_run]
  have hrd : Cut c (· = kept c w.ps) w (Core.readRegister c 0 addr w).2 :=
    foot_cut (A := [.alarm, .appRead]) (.readRegister (List.Subset.refl _)) (by decide) (by decide) w rfl
  exact (write0_either hc m addr _ w e2 e3 (he.trans e.symm) hrd).seq fun S hS => rsp_cut _ _ _ _ hS

theorem handler_cut {c : Ctx} (hc : Plain c) {m : Msg} (hs : m.size.toNat ≤ 8) (w : W) : Either c m w (Core.handleProtocolClassType c m w).2 := by
  by_cases ht : m.typ ∈ ([11, 25, 29, 30, 38] : List U8)
  · simp only [List.mem_cons, List.not_mem_nil, or_false] at ht
    have some' : 1 ≤ m.size.toNat → w.v.nick = m.data[0] → payload m = w.v.nick :: vals m 1 (m.size.toNat - 1) := fun h1 h2 => by
      rw [payload_cons h1, h2]
    have size3 : m.size = 3 ↔ m.size.toNat = 3 := ⟨fun e => by rw [e]; rfl, fun e => BitVec.eq_of_toNat_eq e⟩
    have size2 : m.size = 2 ↔ m.size.toNat = 2 := ⟨fun e => by rw [e]; rfl, fun e => BitVec.eq_of_toNat_eq e⟩
    rcases ht with h | h | h | h | h
    · rw [handler11 h]
      refine Either.when (p := m.size = 3 ∧ w.v.nick = m.data[0]) fun hp => ?_
      rw [bind_run]
      refine (write0_either hc m m.data[1] m.data[2] w rfl rfl ?_ (Cut.refl rfl)).seq fun S hS => rsp_cut _ _ _ _ hS
      have h3 := size3.mp hp.1
      rw [event_eq (some' (by omega) hp.2), h3, h, vals_cons (by omega) (by omega), vals_cons (by omega) (by omega)]
      rfl
    · rw [handler25 h]
      refine Either.when (p := 3 ≤ m.size.toNat ∧ w.v.nick = m.data[0]) fun hp => ?_
      obtain ⟨h3, hn⟩ := hp
      rw [bind_run]
      have hsub := sub2 h3
      generalize hk : Core.limitNum m.data[1] (m.size - 2) = n
      have hlim : n ≤ m.size.toNat - 2 ∧ m.data[1].toNat + n ≤ 256 := by
        unfold Core.limitNum at hk
        rw [hsub] at hk
        have := m.data[1].isLt
        split at hk <;> omega
      have hpay : payload m = w.v.nick :: m.data[1] :: vals m 2 (m.size.toNat - 2) := by
        rw [some' (by omega) hn, vals_cons (by omega) (by omega), show m.size.toNat - 1 - 1 = m.size.toNat - 2 by omega]
      by_cases hz : w.v.page = 0 ∧ 0x94 ≤ m.data[1].toNat
      · left
        refine ⟨(pageLoop_cutR hc m m.data[1] n 0 [0] w (by omega) (by omega) hz.1 (by omega)).tx _ _ _ _, ?_⟩
        rw [event_eq hpay, h]
        exact selected_high (by show w.v.page.toNat = 0; rw [hz.1]; rfl) hz.2 _
      · right
        have hz' : (w.v.page.toNat ≠ 0 ∧ 0x94 ≤ m.data[1].toNat + 0) ∨ m.data[1].toNat + 0 + n ≤ 0xA2 := by
          by_cases hx : 0x94 ≤ m.data[1].toNat
          · left
            exact ⟨fun e => hz ⟨BitVec.eq_of_toNat_eq e, hx⟩, hx⟩
          · right; omega
        refine (pageLoop_cut hc m m.data[1] n 0 [0] w (by omega) (by omega) hz' fun j hj => ⟨_, ?_, rfl⟩).tx _ _ _ _
        have : vals m 2 j = (vals m 2 (m.size.toNat - 2)).take j := by
          unfold vals
          rw [List.take_take, Nat.min_eq_left (by omega)]
        unfold Settings.Part
        rw [if_pos (.inl (by rw [h]; rfl))]
        refine ⟨j + 1 + 1, ?_⟩
        rw [hpay, h, show 2 + 0 = 2 from rfl, this, List.take_succ_cons, List.take_succ_cons]
        simp only [if_true]
        rfl
    · rw [handler29 h]
      refine Either.when (p := m.size = 2 ∧ w.v.nick = m.data[0]) fun hp => ?_
      refine modify_either hc m m.data[1] (· + 1) w ?_
      have h3 := size2.mp hp.1
      rw [event_eq (some' (by omega) hp.2), h3, h, vals_cons (by omega) (by omega)]
      rfl
    · rw [handler30 h]
      refine Either.when (p := m.size = 2 ∧ w.v.nick = m.data[0]) fun hp => ?_
      refine modify_either hc m m.data[1] (· - 1) w ?_
      have h3 := size2.mp hp.1
      rw [event_eq (some' (by omega) hp.2), h3, h, vals_cons (by omega) (by omega)]
      rfl
    · rw [handler38 h]
      refine Either.when (p := 5 ≤ m.size.toNat ∧ w.v.nick = m.data[0]) fun hp => ?_
      obtain ⟨h5, hn⟩ := hp
      have hsub := sub4 h5
      show Either c m w ((Core.extWriteLoop c m (mkWord m.data[1] m.data[2]) m.data[3]
        (if (0xFF - (m.size - 4).toNat) + 1 < m.data[3].toNat then (0xFF - m.data[3].toNat) + 1 else (m.size - 4).toNat) 0
        [0, m.data[1], m.data[2], m.data[3]] >>= fun acc => Core.txFrom c w.v.nick 3 39 acc) w).2
      rw [hsub, bind_run]
      generalize hk : (if (0xFF - (m.size.toNat - 4)) + 1 < m.data[3].toNat then (0xFF - m.data[3].toNat) + 1 else (m.size.toNat - 4)) = n
      have hlim : n ≤ m.size.toNat - 4 ∧ m.data[3].toNat + n ≤ 256 := by
        have := m.data[3].isLt
        split at hk <;> omega
      have hpg : (mkWord m.data[1] m.data[2]).toNat = m.data[1].toNat * 256 + m.data[2].toNat := by
        rw [Pages.mkWord_eq, BitVec.toNat_ofNat]
        have := m.data[1].isLt
        have := m.data[2].isLt
        omega
      have hpay : payload m = w.v.nick :: m.data[1] :: m.data[2] :: m.data[3] :: vals m 4 (m.size.toNat - 4) := by
        rw [some' (by omega) hn, vals_cons (by omega) (by omega), vals_cons (by omega) (by omega), vals_cons (by omega) (by omega),
          show m.size.toNat - 1 - 1 - 1 - 1 = m.size.toNat - 4 by omega]
      by_cases hz : mkWord m.data[1] m.data[2] = 0 ∧ 0x94 ≤ m.data[3].toNat
      · left
        rw [hz.1]
        refine ⟨(extLoop_cutR hc m m.data[3] n 0 _ w (by omega) (by omega) (by omega)).tx _ _ _ _, ?_⟩
        rw [event_eq hpay, h]
        show (settings c w).writePage c (m.data[1].toNat * 256 + m.data[2].toNat) m.data[3].toNat _ = _
        rw [← hpg, hz.1]
        exact page_high hz.2 _
      · right
        have hz' : (mkWord m.data[1] m.data[2]).toNat ≠ 0 ∨ m.data[3].toNat + 0 + n ≤ 0xA2 := by
          by_cases hx : 0x94 ≤ m.data[3].toNat
          · left
            exact fun e => hz ⟨BitVec.eq_of_toNat_eq e, hx⟩
          · right; omega
        refine (extLoop_cut hc m _ m.data[3] n 0 _ w (by omega) (by omega) hz' fun j hj => ⟨_, ?_, rfl⟩).tx _ _ _ _
        have : vals m 4 j = (vals m 4 (m.size.toNat - 4)).take j := by
          unfold vals
          rw [List.take_take, Nat.min_eq_left (by omega)]
        unfold Settings.Part
        rw [if_pos (.inr (by rw [h]; rfl))]
        refine ⟨j + 1 + 1 + 1 + 1, ?_⟩
        rw [hpay, h, show 4 + 0 = 4 from rfl, this, List.take_succ_cons, List.take_succ_cons, List.take_succ_cons, List.take_succ_cons, hpg]
        simp only [if_true]
        rfl
  · left
    have hA : (Wear.typeActs m.typ).all Act.aside = true := by
      simp only [List.mem_cons, List.not_mem_nil, or_false] at ht
      unfold Wear.typeActs
      repeat' split
      all_goals first | rfl | contradiction
    exact ⟨steps_cut (handler_foot (c := c) (m := m) w) hA, event_other ht _⟩

/-! ### Operations -/

/-- What the specification says of an operation. -/
def Lost (c : Ctx) (w w' : W) (op : Op) : Prop :=
  ∃ t, w'.out = w.out ++ t ∧ ∀ k, (∃ x, (settings c w).Partly c w op x ∧ kept c (memAfter w.ps (t.take k)) = x.saved) ∨
    (.portRestore ∈ t ∧ ((settings c w).after c w op).saved.Between c (kept c (memAfter w.ps (t.take k))))

theorem CutR.lost {c : Ctx} {w w' : W} {op : Op} (h : CutR c w w') (hp : (settings c w).Partly c w op (settings c w))
    (ha : (settings c w).after c w op = settings c w) : Lost c w w' op := by
  obtain ⟨t, h1, h2, h3⟩ := h
  refine ⟨t, h1, fun k => (h3 k).imp (fun e => ⟨_, hp, e⟩) fun e => ⟨e.1, ?_⟩⟩
  rw [ha]; exact e.2

/-- A cycle in which the node takes an event. -/
theorem taken_lost {c : Ctx} {w w1 w2 w' : W} {rx : Option Msg} {m : Msg} (hT : Takes c rx w m) (hm : m.cls = 0) (h1 : Cut c (· = kept c w.ps) w w1)
    (en : w1.v.nick = w.v.nick) (es : settings c w1 = settings c w) (h2 : Either c m w1 w2)
    (hE : Eff c (fun s => s.event c w1.v.nick m) ((settings c w1).event c w1.v.nick m = settings c w1) w1 w2) (h3 : CutR c w2 w') : Lost c w w' (.process rx) := by
  have hp : ∀ x, (settings c w).Part c w.v.nick m x → (settings c w).Partly c w (.process rx) x := by
    intro x hx
    unfold Settings.Partly
    simp only
    rw [hT.2.1]
    simp only
    rw [if_pos ⟨hT, hm⟩]
    exact hx
  have ha : (settings c w).after c w (.process rx) = (settings c w).event c w.v.nick m := by
    unfold Settings.after
    simp only
    rw [hT.2.1]
    simp only
    rw [if_pos ⟨hT, hm⟩]
  rcases h2 with ⟨h2, hid⟩ | h2
  · rw [en, es] at hid
    obtain ⟨t, k1, k2, k3⟩ := (h1.cutR.trans h2).trans h3
    refine ⟨t, k1, fun k => (k3 k).imp (fun e => ⟨_, hp _ part_none, e⟩) fun e => ⟨e.1, ?_⟩⟩
    rw [ha, hid]; exact e.2
  · rw [en, es] at h2
    have h12 := (h1.mono (S' := CutShort c w.v.nick m (settings c w)) fun x hx => by rw [hx]; exact CutShort.none).seq h2
    obtain ⟨t, k1, k2, k3, k4⟩ := h12
    obtain ⟨t', k1', k2', k4'⟩ := h3
    have hend : kept c w2.ps = ((settings c w).event c w.v.nick m).saved := by
      obtain ⟨t2, e1, e2, e3⟩ := hE
      have hn : .portRestore ∉ t2 := by
        obtain ⟨t1, f1, -⟩ := h1
        have : t1 ++ t2 = t := List.append_cancel_left (by rw [← List.append_assoc, ← f1, ← e1, k1])
        intro h
        exact k3 (this ▸ List.mem_append_right _ h)
      rw [kept_eq, e3, if_neg hn, en, es]
    refine ⟨t ++ t', by rw [k1', k1, List.append_assoc], fun k => ?_⟩
    rcases take_cases w.ps t t' k with e | e
    · rw [e]
      obtain ⟨y, hy, e'⟩ := k4 k
      exact .inl ⟨y, hp y hy, e'⟩
    · rw [e, ← k2]
      rcases k4' (k - t.length) with e' | ⟨e1, e2⟩
      · exact .inl ⟨_, hp _ part_all, e'.trans hend⟩
      · right
        rw [hend] at e2
        exact ⟨List.mem_append_right _ e1, by rw [ha]; exact e2⟩

theorem untaken {c : Ctx} {w : W} {rx : Option Msg} (h : ¬∃ m, m.cls = 0 ∧ Takes c rx w m) :
    (settings c w).Partly c w (.process rx) (settings c w) ∧ (settings c w).after c w (.process rx) = settings c w := by
  constructor
  · unfold Settings.Partly
    simp only
    split
    · rename_i m _
      rw [if_neg fun h' => h ⟨m, h'.2, h'.1⟩]
      trivial
    · trivial
  · unfold Settings.after
    simp only
    split
    · rename_i m _
      rw [if_neg fun h' => h ⟨m, h'.2, h'.1⟩]
    · rfl

theorem quiet_cut {c : Ctx} {w w1 : W} {t : List Out} (ho : w1.out = w.out ++ t) (hp : w1.ps = w.ps) (hn : .portRestore ∉ t) (hw : ∀ L b, .psW L b ∉ t) :
    Cut c (· = kept c w.ps) w w1 := by
  refine ⟨t, ho, ?_, hn, fun k => kept_congr fun L _ => memAfter_keep fun b hb => hw L b (List.mem_of_mem_take hb)⟩
  rw [hp]
  funext L
  exact (memAfter_keep (hw L)).symm

/-- One operation. -/
theorem op_lost {c : Ctx} (hc : Plain c) (op : Op) (w : W) (hs : ∀ rx m, op = .process rx → Takes c rx w m → m.size.toNat ≤ 8) :
    Lost c w (stepOp c op w).2 op := by
  by_cases hp : ∃ rx, op = .process rx
  · obtain ⟨rx, rfl⟩ := hp
    change Lost c w (Core.process c rx w).2 (.process rx)
    by_cases ht : ∃ m, m.cls = 0 ∧ Takes c rx w m
    · obtain ⟨m, hm, ht⟩ := ht
      obtain ⟨w1, t1, ho1, hp1, hs1, htail⟩ := takes_cycle ht hm
      have e1 := hs1 .nick (by decide)
      have e2 := hs1 .page (by decide)
      have e3 := hs1 .ps (by decide)
      simp only [Comp.same] at e1 e2 e3
      have n1 : .portRestore ∉ t1 := fun h => by obtain ⟨_, h⟩ := hp1 _ h; cases h
      have n2 : ∀ L b, .psW L b ∉ t1 := fun L b h => by obtain ⟨_, h⟩ := hp1 _ h; cases h
      have es : settings c w1 = settings c w := settings_congr (fun L _ => by rw [e3]) e2
      exact taken_lost ht hm (quiet_cut ho1 e3 n1 n2) e1 es (handler_cut hc (hs rx m rfl ht) w1) (handler_eff hc (hs rx m rfl ht) w1)
        (steps_cut htail.steps (by decide))
    · obtain ⟨u1, u2⟩ := untaken ht
      refine CutR.lost ?_ u1 u2
      by_cases hst : w.v.st = .active
      · obtain ⟨w1, t1, ho1, hp1, hs1, htail⟩ := other_cycle (c := c) (rx := rx) hst (fun m hm h => ht ⟨m, hm, h⟩)
        have e3 := hs1 .ps (by decide)
        simp only [Comp.same] at e3
        have n1 : .portRestore ∉ t1 := fun h => by rcases hp1 _ h with ⟨_, _, h⟩ | ⟨_, h⟩ <;> cases h
        have n2 : ∀ L b, .psW L b ∉ t1 := fun L b h => by rcases hp1 _ h with ⟨_, _, h⟩ | ⟨_, h⟩ <;> cases h
        exact (quiet_cut ho1 e3 n1 n2).cutR.trans (steps_cut htail.steps (by decide))
      · have h := steps_cut (process_state c rx w) (by
          cases h : w.v.st with
          | active => exact absurd h hst
          | _ => decide)
        have e3 := pre_same c rx w .ps (by decide)
        simp only [Comp.same] at e3
        exact (quiet_cut (t := []) (by rw [pre_out]; simp) e3 (by simp) (by simp)).cutR.trans h
  · have hp' : ∀ rx, op ≠ .process rx := fun rx e => hp ⟨rx, e⟩
    refine CutR.lost (steps_cut (op_steps c op hp' w) (by cases op <;> rfl)) ?_ ?_
    · cases op with
      | process rx => exact absurd rfl (hp' rx)
      | _ => rfl
    · cases op with
      | process rx => exact absurd rfl (hp' rx)
      | _ => rfl

/-- One operation of an application which calls the framework in its callbacks and lets it handle the protocol events. -/
theorem tail_cut {c : Ctx} {P : Msg → Prop} {w w' : W} (h : StepsB tailActs c True P w w') : CutR c w w' := by
  obtain ⟨L, -, hs⟩ := h
  refine steps_cut hs ?_
  rw [List.all_append, Bool.and_eq_true]
  refine ⟨by decide, List.all_eq_true.mpr fun x hx => ?_⟩
  obtain ⟨m, -, rfl⟩ := List.mem_map.1 hx
  rfl

theorem opC_lost {c : Ctx} {cb : Callbacks} (hcb : CbOk cb) (hpn : c.protoNotify = false) (hc : Plain c) (op : Op) (w : W)
    (hs : ∀ rx m, op = .process rx → Takes c rx w m → m.size.toNat ≤ 8) : Lost c w (stepOpC c cb op w).2 op := by
  by_cases hp : ∃ rx, op = .process rx ∧ w.v.st = .active
  · obtain ⟨rx, rfl, hst⟩ := hp
    change Lost c w (Core.processC c cb rx w).2 (.process rx)
    have e1 := pre_same c rx w .nick (by decide)
    have e2 := pre_same c rx w .page (by decide)
    have e3 := pre_same c rx w .ps (by decide)
    have e4 := pre_same c rx w .st (by decide)
    simp only [Comp.same] at e1 e2 e3 e4
    rw [hst] at e4
    have es : settings c (preProcess c rx w).2 = settings c w := settings_congr (fun L _ => by rw [e3]) e2
    have b : Cut c (· = kept c w.ps) w (preProcess c rx w).2 := quiet_cut (t := []) (by rw [pre_out]; simp) e3 (by simp) (by simp)
    by_cases hm : ∃ m, (Transport.readMessage c rx w).1 = some m ∧ m.cls = 0
    · obtain ⟨m, hr, hm⟩ := hm
      have ht : Takes c rx w m := ⟨hst, hr, fun h => by rw [hpn] at h; exact absurd h (by decide)⟩
      have hr' : (preProcess c rx w).1 = some m := by rw [preProcess_rx]; exact hr
      exact taken_lost ht hm b e1 es (handler_cut hc (hs rx m rfl ht) _) (handler_eff hc (hs rx m rfl ht) _) (tail_cut (protocol_cycle hcb hpn e4 hr' hm))
    · have hm' : ∀ m, (preProcess c rx w).1 = some m → m.cls ≠ 0 := by
        intro m hr h0
        rw [preProcess_rx] at hr
        exact hm ⟨m, hr, h0⟩
      obtain ⟨u1, u2⟩ := untaken (c := c) (w := w) (rx := rx) (fun ⟨m, h, h'⟩ => hm ⟨m, h'.2.1, h⟩)
      exact CutR.lost (b.cutR.trans (tail_cut (other_cycleC hcb e4 hm'))) u1 u2
  · have e : (stepOpC c cb op w).2 = (stepOp c op w).2 := by
      cases op with
      | process rx =>
        have hst : w.v.st ≠ .active := fun h => hp ⟨rx, rfl, h⟩
        have e4 := pre_same c rx w .st (by decide)
        simp only [Comp.same] at e4
        show (Core.processC c cb rx w).2 = (Core.process c rx w).2
        rw [processC_split, process_split]
        dsimp only
        unfold Core.dispatchC
        rw [bind_run, get_run]
        dsimp only
        rw [e4]
        cases h : w.v.st with
        | active => exact absurd h hst
        | _ => rfl
      | _ => rfl
    rw [e]
    exact op_lost hc op w hs

theorem Lost.is {c : Ctx} {w w' : W} {op : Op} (h : Lost c w w' op) (k : Nat) :
    (∃ x, (settings c w).Partly c w op x ∧ kept c (lossMem w w' k) = x.saved) ∨
      (factoryReset w w' ∧ ((settings c w).after c w op).saved.Between c (kept c (lossMem w w' k))) := by
  obtain ⟨t, h1, h2⟩ := h
  have e : w'.out.drop w.out.length = t := by rw [h1, List.drop_left]
  have e' : lossMem w w' k = memAfter w.ps (t.take k) := by unfold lossMem; rw [e]
  rw [e', factory_of h1]
  exact h2 k

/-- C113: whenever a node loses its power - in the middle of any call, after any of its calls to the environment -, the settings it finds when it is
switched on again are those before the call; or what the event received in the call makes of them, where a page write may be cut short to its first bytes; or, if
the call restores the factory settings, every byte of them is that of the factory settings or the one before. -/
theorem C113_loss {c : Ctx} (h : GoodCfg c) (hc : Plain c) (ok : Tmr → Bool) (ops : List Op) (hops : ∀ op ∈ ops, op.Ok) (op : Op) (hop : op.Ok) (w0 : W) (k : Nat) :
    let w := runOps c (.init ok :: ops) w0
    let s := settings c w
    (∃ x, s.Partly c w op x ∧ kept c (lossMem w (stepOp c op w).2 k) = x.saved) ∨
      (factoryReset w (stepOp c op w).2 ∧ (s.after c w op).saved.Between c (kept c (lossMem w (stepOp c op w).2 k))) := by
  intro w s
  refine (op_lost hc op w fun rx m e ht => ?_).is k
  have hl : LbOk c w :=
    ((runOps_steps h.notBad h.lb ops hops _ (init_lbOk h.lb ok w0).1).lbOk h.notBad h.lb (init_lbOk h.lb ok w0).1).1
  subst e
  refine (hl.read rx ?_).2.2 m ht.2.1
  rintro m' rfl
  exact hop

/-- C113: the same holds for an application which calls the framework in its callbacks for events, actions, time and heartbeat, whatever it calls there. -/
theorem C113_callbacks {c : Ctx} (h : GoodCfg c) (hc : Plain c) {cb : Callbacks} (hcb : CbOk cb) (hpn : c.protoNotify = false) (ok : Tmr → Bool) (ops : List Op)
    (hops : ∀ op ∈ ops, op.Ok) (op : Op) (hop : op.Ok) (w0 : W) (k : Nat) :
    let w := runOpsC c cb (.init ok :: ops) w0
    let s := settings c w
    (∃ x, s.Partly c w op x ∧ kept c (lossMem w (stepOpC c cb op w).2 k) = x.saved) ∨
      (factoryReset w (stepOpC c cb op w).2 ∧ (s.after c w op).saved.Between c (kept c (lossMem w (stepOpC c cb op w).2 k))) := by
  intro w s
  refine (opC_lost hcb hpn hc op w fun rx m e ht => ?_).is k
  have key : ∀ (ops : List Op), (∀ op ∈ ops, op.Ok) → ∀ w, LbOk c w → LbOk c (runOpsC c cb ops w) := by
    intro ops
    induction ops with
    | nil => intro _ w hl; exact hl
    | cons op ops ih =>
      intro hops w hl
      obtain ⟨L, -, hs⟩ := stepOpC_steps hcb (hops op (by simp)) hl
      exact ih (fun o ho => hops o (by simp [ho])) _ (hs.lbOk h.notBad h.lb hl).1
  have hl : LbOk c w := key ops hops _ (init_lbOk h.lb ok w0).1
  subst e
  refine (hl.read rx ?_).2.2 m ht.2.1
  rintro m' rfl
  exact hop

/-- C113: requests which write a single register (write, increment, decrement) are done or not: the settings found after the loss of power are those before or
those after, unless the factory settings are restored. -/
theorem C113_single {c : Ctx} (h : GoodCfg c) (hc : Plain c) (ok : Tmr → Bool) (ops : List Op) (hops : ∀ op ∈ ops, op.Ok) (rx : Option Msg) (hop : (Op.process rx).Ok)
    (w0 : W) (k : Nat) {m : Msg} (hm : m.cls = 0) (ht : m.typ ≠ 25 ∧ m.typ ≠ 38) :
    let w := runOps c (.init ok :: ops) w0
    let w' := (Core.process c rx w).2
    Takes c rx w m → ¬factoryReset w w' → kept c (lossMem w w' k) = (settings c w).saved ∨ kept c (lossMem w w' k) = (settings c w').saved := by
  intro w w' hT hn
  have hs : settings c w' = (settings c w).event c w.v.nick m := by
    have e : settings c w' = (settings c w).next c w w' (.process rx) := by
      refine op_settings hc (.process rx) w fun rx' m' e ht => ?_
      have hl : LbOk c w :=
        ((runOps_steps h.notBad h.lb ops hops _ (init_lbOk h.lb ok w0).1).lbOk h.notBad h.lb (init_lbOk h.lb ok w0).1).1
      have e := Op.process.inj e
      subst e
      refine (hl.read rx ?_).2.2 m' ht.2.1
      rintro m'' rfl
      exact hop
    rw [e]
    unfold Settings.next Settings.after
    simp only
    rw [if_neg hn, hT.2.1]
    simp only
    rw [if_pos ⟨hT, hm⟩]
  rcases C113_loss h hc ok ops hops (.process rx) hop w0 k with ⟨x, hx, e⟩ | ⟨h1, -⟩
  · unfold Settings.Partly at hx
    simp only at hx
    rw [hT.2.1] at hx
    simp only at hx
    rw [if_pos ⟨hT, hm⟩] at hx
    unfold Settings.Part at hx
    rw [if_neg (fun e => e.elim (fun e => ht.1 (BitVec.eq_of_toNat_eq e)) fun e => ht.2 (BitVec.eq_of_toNat_eq e))] at hx
    rcases hx with rfl | rfl
    · exact .inl e
    · right
      rw [hs]
      exact e
  · exact absurd h1 hn

/-- C113: with what the node finds it goes on as after any other restart: the settings are then what the events it takes make of what it found. -/
theorem C113_restart {c : Ctx} (h : GoodCfg c) (hc : Plain c) (w w' : W) (k : Nat) (ok : Tmr → Bool) (ops : List Op) (hops : ∀ op ∈ ops, op.Ok) :
    settings c (runOps c (.init ok :: ops) (powerUp (lossMem w w' k))) = (kept c (lossMem w w' k)).history c (.init ok :: ops) (powerUp (lossMem w w' k)) :=
  C109_node h hc ok ops hops _

/-! ### Concrete cases -/

/-- The node has nickname 5 and is active. -/
def lossW : W := node Ex.ctx allOk (mem 0x60) [.process none]

/-- A page write of four bytes to the user id. -/
def lossOp : Op := .process (some (Ex.msg 0 25 1 [5, 0x84, 1, 2, 3, 4]))

-- The bytes are written one after the other: if the power is lost after two of them, the node has these two; later, all four.
example : lossOp.Ok ∧ lossW.v.st = .active ∧ ¬factoryReset lossW (stepOp Ex.ctx lossOp lossW).2 ∧
    ((List.range 6).map fun k => (List.range 5).map (kept Ex.ctx.toCfg (lossMem lossW (stepOp Ex.ctx lossOp lossW).2 k)).user) =
      [[0, 0, 0, 0, 0], [1, 0, 0, 0, 0], [1, 2, 0, 0, 0], [1, 2, 3, 0, 0], [1, 2, 3, 4, 0], [1, 2, 3, 4, 0]] := by
  refine ⟨by simp [lossOp, Op.Ok]; decide, by decide +kernel, by unfold factoryReset; decide +kernel, by decide +kernel⟩

-- In the middle of a restore of the factory settings: the flags are those of the factory, the user id is still the old one.
example : let w := node Ex.ctx allOk (mem 0x60) [.process none, .process (some (Ex.msg 0 11 1 [5, 0x84, 3])), .process (some (Ex.msg 0 11 1 [5, 0xA2, 0x55]))]
    let w' := (stepOp Ex.ctx (.process (some (Ex.msg 0 11 1 [5, 0xA2, 0xAA]))) w).2
    factoryReset w w' ∧ (settings Ex.ctx.toCfg w).flags = 0x60 ∧ (settings Ex.ctx.toCfg w).user 0 = 3 ∧
      ((List.range 6).map fun k => ((kept Ex.ctx.toCfg (lossMem w w' k)).flags, (kept Ex.ctx.toCfg (lossMem w w' k)).user 0)) =
      [(0x60, 3), (0x60, 3), (0x60, 3), (0xA0, 3), (0xA0, 0), (0xA0, 0)] := by
  unfold factoryReset
  decide +kernel

end Vscp.Sett
