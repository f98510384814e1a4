/-
Property theorems: a register holds what was written to it last (C102).
-/
import Verif.Props.Wear
import Verif.Props.Registers
import Verif.Spec.LastWrite
import Verif.Lemmas.Callout

namespace Vscp.LastWrite
open M Vscp.Spec Vscp.Safety Vscp.Wear Transport

/-! ### The memory and the trace -/

theorem Step.mem {c : Ctx} {bad : Prop} {a : Act} {w w' : W} (hs : Step c bad a w w') (L : Nat) :
    ∃ t, w'.out = w.out ++ t ∧ ((∀ b, .psW L b ∉ t) → w'.ps L = w.ps L) := by
  have put : ∀ x b, ∃ t, (putPs x b w).out = w.out ++ t ∧ ((∀ b, .psW L b ∉ t) → (putPs x b w).ps L = w.ps L) := by
    intro x b
    refine ⟨[.psW x b], rfl, fun h => ?_⟩
    unfold putPs
    simp only
    rw [if_neg (fun e => h b (by rw [e]; simp))]
  have wr : ∀ (l : List (Nat × U8)) (pre post : List Out), (∀ b, .psW L b ∉ pre ++ (traceOf l ++ post)) → applyWrites w.ps l L = w.ps L := by
    intro l pre post h
    refine applyWrites_other fun x hx e => h x.2 ?_
    refine List.mem_append_right _ (List.mem_append_left _ ?_)
    unfold traceOf
    exact List.mem_map.mpr ⟨x, hx, by rw [← e]⟩
  by_cases ht : a.touches .ps = false
  · obtain ⟨t, h1, -⟩ := hs.outs
    have := hs.same .ps ht
    exact ⟨t, h1, fun _ => by rw [show w'.ps = w.ps from this]⟩
  · cases a with
    | nick => obtain ⟨n, rfl⟩ := hs; exact put _ _
    | seg => obtain ⟨b, rfl⟩ := hs; exact put _ _
    | flags => obtain ⟨b, rfl⟩ := hs; exact put _ _
    | user => obtain ⟨i, b, hi, rfl⟩ := hs; exact put _ _
    | boot => obtain ⟨hb, b, rfl⟩ := hs; exact put _ _
    | dmW => obtain ⟨he, i, b, hi, rfl⟩ := hs; exact put _ _
    | ngW => obtain ⟨he, i, b, hi, rfl⟩ := hs; exact put _ _
    | restore =>
      simp only [Step] at hs
      rw [restore_run] at hs
      subst hs
      exact ⟨_, rfl, fun h => wr _ [] _ h⟩
    | appWrite =>
      obtain ⟨he, p, a, v, rfl⟩ := hs
      rw [appWriteRegister_run]
      exact ⟨_, List.append_assoc .., fun h => wr _ [] [] (by simpa using h)⟩
    | _ => exact absurd (by rfl) ht

theorem Steps.mem {c : Ctx} {bad : Prop} {A : List Act} {w w' : W} (hs : Steps c bad A w w') (L : Nat) :
    ∃ t, w'.out = w.out ++ t ∧ ((∀ b, .psW L b ∉ t) → w'.ps L = w.ps L) := by
  refine hs.rel (R := fun w w' => ∃ t, w'.out = w.out ++ t ∧ ((∀ b, .psW L b ∉ t) → w'.ps L = w.ps L)) ?_ ?_ ?_
  · exact fun w => ⟨[], by simp, fun _ => rfl⟩
  · rintro w w' w'' ⟨t, h1, h2⟩ ⟨t', h1', h2'⟩
    refine ⟨t ++ t', by rw [h1', h1, List.append_assoc], fun h => ?_⟩
    rw [h2' fun b hb => h b (List.mem_append_right _ hb), h2 fun b hb => h b (List.mem_append_left _ hb)]
  · exact fun a _ w w' h => Step.mem h L

/-- A byte which an operation does not store does not change. -/
theorem op_mem (c : Ctx) (op : Op) (w : W) (L : Nat) (h : ∀ b, (L, b) ∉ stored w (stepOp c op w).2) :
    (stepOp c op w).2.ps L = w.ps L := by
  have fin : ∀ w' t, w'.out = w.out ++ t → ((∀ b, .psW L b ∉ t) → w'.ps L = w.ps L) → (∀ b, (L, b) ∉ stored w w') → w'.ps L = w.ps L := by
    intro w' t h1 h2 h3
    rw [stored_of h1] at h3
    exact h2 fun b hb => h3 b (mem_storedIn.mpr hb)
  by_cases hp : ∃ rx, op = .process rx
  · obtain ⟨rx, rfl⟩ := hp
    obtain ⟨t, h1, h2⟩ := Steps.mem (process_state c rx w) L
    have hps := pre_same c rx w .ps (by decide)
    simp only [Comp.same] at hps
    rw [pre_out] at h1
    rw [hps] at h2
    exact fin _ t h1 h2 h
  · obtain ⟨t, h1, h2⟩ := Steps.mem (op_steps c op (fun rx e => hp ⟨rx, e⟩) w) L
    exact fin _ t h1 h2 h

/-! ### Writing a register -/

/-- Where a plain register is stored. -/
def loc (c : Cfg) (a : U8) : Nat := if a = 0x83 then Ps.addrFlags c else Ps.addrUserId c + (a.toNat - 0x84)

theorem loc_lt {c : Cfg} {a : U8} (ha : plain a) : Ps.addrFlags c ≤ loc c a ∧ loc c a < Ps.addrGuid c := by
  have e1 : Ps.addrGuid c = Ps.addrUserId c + 5 := rfl
  have e2 : Ps.addrUserId c = Ps.addrFlags c + 1 := rfl
  unfold plain at ha
  unfold loc
  split <;> omega

theorem loc_inj {c : Cfg} {a b : U8} (ha : plain a) (hb : plain b) (h : loc c a = loc c b) : a = b := by
  have e2 : Ps.addrUserId c = Ps.addrFlags c + 1 := rfl
  unfold plain at ha hb
  apply BitVec.eq_of_toNat_eq
  unfold loc at h
  split at h <;> split at h
  · rename_i h1 h2; rw [h1, h2]
  · omega
  · omega
  · rename_i h1 h2
    have q1 : a.toNat ≠ 0x83 := fun e => h1 (BitVec.eq_of_toNat_eq e)
    have q2 : b.toNat ≠ 0x83 := fun e => h2 (BitVec.eq_of_toNat_eq e)
    omega

theorem read_plain {c : Ctx} {a : U8} (ha : plain a) (w : W) : (Core.readRegister c 0 a w).1 = w.ps (loc c a) := by
  have ⟨h1, h2⟩ := ha
  unfold Core.readRegister
  rw [if_pos ⟨rfl, by omega, by omega⟩]
  unfold Core.readVscpRegister
  rw [if_neg (by omega), if_neg (by omega), if_neg (by omega)]
  by_cases h3 : a.toNat = 0x83
  · rw [if_pos h3]
    have : a = 0x83 := BitVec.eq_of_toNat_eq h3
    subst this
    rfl
  · rw [if_neg h3, if_pos (by omega)]
    unfold Ps.readUserId Ps.readIdx loc
    rw [if_pos (show Ps.sizeUserId c > a.toNat - 0x84 by unfold Ps.sizeUserId; omega), if_neg (fun e => h3 (by rw [e]; rfl))]
    rfl

theorem factory_at {c : Ctx} {a : U8} (ha : plain a) (ps : Nat → U8) : applyWrites ps (Restore.all c) (loc c a) = factory a := by
  unfold loc factory
  unfold plain at ha
  split
  · exact Restore.flags_at c ps
  · rename_i h
    have : a.toNat ≠ 0x83 := fun e => h (BitVec.eq_of_toNat_eq e)
    exact Restore.userId_at c ps _ (by omega)

/-- What a part of the code does to a plain register (`rst`: the factory settings may be restored in it), and to the page select. -/
def Sets {α : Type} (c : Ctx) (a : U8) (x : Option U8) (rst keep : Prop) (m : M α) (w : W) : Prop :=
  (∃ t, (m w).2.out = w.out ++ t ∧ (.portRestore ∈ t → rst) ∧
    (m w).2.ps (loc c a) = if .portRestore ∈ t then factory a else x.getD (w.ps (loc c a))) ∧ (keep → (m w).2.v.page = w.v.page)

/-- Steps which do not store the byte, other than the factory restore. -/
theorem steps_sets {c : Ctx} {A : List Act} {w w' : W} (hs : Steps c True A w w') {a : U8} (hpl : plain a)
    (hA : ∀ x ∈ A, x = .restore ∨ ∀ b, ¬x.emits c (.psW (loc c a) b)) :
    ∃ t, w'.out = w.out ++ t ∧ (.portRestore ∈ t → .restore ∈ A) ∧ w'.ps (loc c a) = if .portRestore ∈ t then factory a else w.ps (loc c a) := by
  refine hs.rel (R := fun w w' => ∃ t, w'.out = w.out ++ t ∧ (.portRestore ∈ t → .restore ∈ A) ∧
    w'.ps (loc c a) = if .portRestore ∈ t then factory a else w.ps (loc c a)) ?_ ?_ ?_
  · exact fun w => ⟨[], by simp, fun h => (by cases h), rfl⟩
  · rintro w w' w'' ⟨t, h1, h2, h3⟩ ⟨t', h1', h2', h3'⟩
    refine ⟨t ++ t', by rw [h1', h1, List.append_assoc], fun h => (List.mem_append.mp h).elim h2 h2', ?_⟩
    rw [h3', h3]
    simp only [List.mem_append]
    split <;> simp [*]
  · intro x hx w w' hst
    by_cases hr : x = .restore
    · subst hr
      simp only [Step] at hst
      rw [restore_run] at hst
      subst hst
      refine ⟨_, rfl, fun _ => hx, ?_⟩
      rw [if_pos (by simp)]
      exact factory_at hpl _
    · have he := (hA x hx).resolve_left hr
      obtain ⟨t, h1, h2⟩ := hst.outs
      obtain ⟨t', h1', h2'⟩ := Step.mem hst (loc c a)
      have e : t = t' := List.append_cancel_left (h1.symm.trans h1')
      subst e
      have hn : .portRestore ∉ t := fun hm => by
        have := h2 _ hm
        cases x <;> first | exact hr rfl | exact this | (obtain ⟨_, h⟩ := this; cases h; done) | (obtain ⟨_, _, h⟩ := this; cases h; done) |
          (obtain ⟨_, _, _, h⟩ := this; cases h; done) | (cases this; done) |
          (rcases this with ⟨_, _, _, _, h⟩ | ⟨_, _, _, h⟩ <;> cases h)
      exact ⟨t, h1, fun hm => absurd hm hn, by rw [if_neg hn]; exact h2' fun b hb => he b (h2 _ hb)⟩

theorem sets_foot {α : Type} {c : Ctx} {A : List Act} {m : M α} (hf : Foot c True A m) {a : U8} (hpl : plain a)
    (hA : ∀ x ∈ A, x = .restore ∨ ∀ b, ¬x.emits c (.psW (loc c a) b)) (w : W) :
    Sets c a none (.restore ∈ A) (A.all (fun x => !x.touches .page) = true) m w :=
  ⟨steps_sets (hf w) hpl hA, fun hp => (hf w).same .page hp⟩

theorem Sets.mono {α : Type} {c : Ctx} {a : U8} {x : Option U8} {r r' p q : Prop} {m : M α} {w : W} (h : Sets c a x r p m w) (hr : r → r') (hpq : q → p) :
    Sets c a x r' q m w := by
  obtain ⟨⟨t, h1, h2, h3⟩, h4⟩ := h
  exact ⟨⟨t, h1, fun hm => hr (h2 hm), h3⟩, fun hq => h4 (hpq hq)⟩

theorem sets_write {c : Ctx} {a : U8} (ha : plain a) (page : U16) (addr v : U8) (w : W) :
    Sets c a (if page = 0 ∧ addr = a then some v else none) (page = 0 ∧ addr = 0xA2) (¬(page = 0 ∧ (addr = 0x92 ∨ addr = 0x93 ∨ addr = 0xA2)))
      (Core.writeRegister c page addr v) w := by
  by_cases h0 : page = 0 ∧ 0x80 ≤ addr.toNat ∧ addr.toNat ≤ 0xFF
  · have h00 := h0.1
    subst h00
    simp only [true_and]
    unfold Core.writeRegister
    rw [if_pos h0]
    by_cases hp : plain addr
    · have ⟨h1, h2⟩ := hp
      have e : (Core.writeVscpRegister c addr v w).2 = putPs (loc c addr) v w := by
        by_cases h3 : addr.toNat = 0x83
        · have : addr = 0x83 := BitVec.eq_of_toNat_eq h3
          subst this
          rfl
        · have e1 : Core.writeVscpRegister c addr v = (do
              Ps.writeUserId c (addr.toNat - 0x84) v
              let r ← Ps.readUserId c (addr.toNat - 0x84)
              pure (r, false)) := by
            unfold Core.writeVscpRegister
            dsimp only
            rw [if_neg h3, if_pos (by omega)]
          have e2 : Ps.writeUserId c (addr.toNat - 0x84) v = psWrite8 (loc c addr) v := by
            unfold Ps.writeUserId Ps.writeIdx loc
            rw [if_pos (show Ps.sizeUserId c > addr.toNat - 0x84 by unfold Ps.sizeUserId; omega), if_neg (fun e : addr = 0x83 => h3 (by rw [e]; rfl))]
          have e3 : Ps.readUserId c (addr.toNat - 0x84) = psRead8 (Ps.addrUserId c + (addr.toNat - 0x84)) := by
            unfold Ps.readUserId Ps.readIdx
            rw [if_pos (show Ps.sizeUserId c > addr.toNat - 0x84 by unfold Ps.sizeUserId; omega)]
          rw [e1, e2, e3]
          rfl
      refine ⟨⟨[.psW (loc c addr) v], by rw [e]; rfl, fun h => (by simp at h), ?_⟩, fun _ => by rw [e]; rfl⟩
      rw [if_neg (by simp)]
      rw [e]
      unfold putPs
      simp only
      by_cases hx : addr = a
      · subst hx; simp
      · rw [if_neg hx, if_neg fun h => hx (loc_inj hp ha h.symm)]; rfl
    · have hne : addr ≠ a := fun e => hp (by rw [e]; exact ha)
      rw [if_neg hne]
      have hp' : ¬(0x83 ≤ addr.toNat ∧ addr.toNat ≤ 0x88) := hp
      unfold Core.writeVscpRegister
      rw [if_neg (by omega), if_neg (by omega)]
      by_cases h92 : addr.toNat = 0x92
      · rw [if_pos h92]
        exact ⟨⟨[], by simp, fun h => (by cases h), rfl⟩, fun hk => absurd (.inl (BitVec.eq_of_toNat_eq h92)) hk⟩
      rw [if_neg h92]
      by_cases h93 : addr.toNat = 0x93
      · rw [if_pos h93]
        exact ⟨⟨[], by simp, fun h => (by cases h), rfl⟩, fun hk => absurd (.inr (.inl (BitVec.eq_of_toNat_eq h93))) hk⟩
      rw [if_neg h93]
      by_cases hA2 : addr.toNat = 0xA2
      · rw [if_pos hA2]
        have hf : Foot c True [.tm .reg162, .restore] (do Core.writeRestoreStdCfg c v; pure (0, false) : M (U8 × Bool)) := by
          refine .bind ?_ fun _ => .pure _
          unfold Core.writeRestoreStdCfg
          exact .bind (.timerRunning _) fun _ => .ite (fun _ => .timerStart _ (by decide)) fun _ =>
            .ite (fun _ => .bind (.timerStop (by decide)) fun _ => .restore (by decide)) fun _ => .pure _
        refine (sets_foot hf ha ?_ w).mono (fun _ => BitVec.eq_of_toNat_eq hA2) fun hk => absurd (.inr (.inr (BitVec.eq_of_toNat_eq hA2))) hk
        intro x hx
        simp only [List.mem_cons, List.not_mem_nil, or_false] at hx
        rcases hx with rfl | rfl
        · exact .inr fun b h => h
        · exact .inl rfl
      · rw [if_neg hA2]
        exact ⟨⟨[], by simp, fun h => (by cases h), rfl⟩, fun _ => rfl⟩
  · have hne : ¬(page = 0 ∧ addr = a) := by
      rintro ⟨h1, h2⟩
      have hlt := addr.isLt
      obtain ⟨q1, q2⟩ := ha
      rw [h2] at h0 hlt
      exact h0 ⟨h1, by omega, by omega⟩
    rw [if_neg hne]
    refine (sets_foot (A := [.dmW, .dmIdx, .ngW, .appWrite]) (.writeOuter h0 (List.Subset.refl _)) ha ?_ w).mono (fun h => absurd h (by decide)) fun _ => by decide
    have hl := loc_lt (c := c.toCfg) ha
    have hm := Restore.layout_mono c
    have e2 : Ps.addrZone c = Ps.addrGuid c + Ps.sizeGuid c := rfl
    have e3 : Ps.addrSubZone c = Ps.addrZone c + Ps.sizeZone c := rfl
    intro x hx
    refine .inr ?_
    simp only [List.mem_cons, List.not_mem_nil, or_false] at hx
    rcases hx with rfl | rfl | rfl | rfl
    · rintro b ⟨i, v, hi, h⟩
      have := (Out.psW.inj h).1
      omega
    · exact fun b h => h
    · rintro b ⟨i, v, hi, h⟩
      have := (Out.psW.inj h).1
      omega
    · rintro b (⟨_, _, _, _, h⟩ | ⟨x, v, hx, h⟩)
      · cases h
      · have := (Out.psW.inj h).1
        omega

/-! ### Handling of an event -/

theorem Sets.bind {α β : Type} {c : Ctx} {a : U8} {x y : Option U8} {r r' p q : Prop} {m : M α} {f : α → M β} {w : W} (h : Sets c a x r p m w)
    (h' : (p → (m w).2.v.page = w.v.page) → Sets c a y r' q (f (m w).1) (m w).2) (hr : r → y = none) :
    Sets c a (y.or x) (r ∨ r') (p ∧ q) (m >>= f) w := by
  obtain ⟨⟨t, h1, h2, h2'⟩, h3⟩ := h
  obtain ⟨⟨t', h4, h5, h5'⟩, h6⟩ := h' h3
  refine ⟨⟨t ++ t', by rw [bind_run, h4, h1, List.append_assoc], fun hm => (List.mem_append.mp hm).imp h2 h5, ?_⟩, fun hpq => ?_⟩
  · rw [bind_run, h5', h2']
    simp only [List.mem_append]
    by_cases hm' : .portRestore ∈ t'
    · simp [hm']
    · by_cases hm : .portRestore ∈ t
      · simp [hm', hm, hr (h2 hm)]
      · simp only [hm', hm, if_false, or_self]
        cases y <;> rfl
  · rw [bind_run, h6 hpq.2, h3 hpq.1]

/-- A part which keeps the memory. -/
theorem Sets.same {α : Type} {c : Ctx} {a : U8} {r : Prop} {m : M α} {w : W} (h : (m w).2.ps = w.ps)
    (h' : ∃ t, (m w).2.out = w.out ++ t ∧ .portRestore ∉ t) : Sets c a none r False m w := by
  obtain ⟨t, h', hn⟩ := h'
  exact ⟨⟨t, h', fun h => absurd h hn, by rw [h, if_neg hn]; rfl⟩, fun h => h.elim⟩

theorem sets_pageLoop {c : Ctx} {a : U8} (ha : plain a) (m : Msg) (r : U8) (n i : Nat) (acc : List U8) (w : W) (hr : r.toNat + i + n ≤ 256)
    (hm : 2 + i + n ≤ 8) :
    Sets c a (if w.v.page = 0 ∧ r.toNat + i ≤ a.toNat ∧ a.toNat < r.toNat + i + n then m.data[2 + (a.toNat - r.toNat)]? else none) True False
      (Core.pageWriteLoop c m r n i acc) w := by
  induction n generalizing i acc w with
  | zero =>
    rw [if_neg (by omega)]
    exact .same rfl ⟨[], by simp [Core.pageWriteLoop]⟩
  | succ n ih =>
    have hplain := ha
    unfold plain at hplain
    have e : Core.pageWriteLoop c m r (n + 1) i acc w =
        (Core.writeRegister c w.v.page (r + BitVec.ofNat 8 i) (m.data.toList.getD (2 + i) 0) >>= fun x =>
          Core.pageWriteLoop c m r n (i + 1) (acc ++ [x.1])) w := by
      rw [Core.pageWriteLoop, bind_run, get_run]
      dsimp only
      rw [bind_run, dataAt_run m _ (by omega)]
    have hadd : (r + BitVec.ofNat 8 i).toNat = r.toNat + i := by
      rw [BitVec.toNat_add, BitVec.toNat_ofNat]
      omega
    have h1 := sets_write (c := c) ha w.v.page (r + BitVec.ofNat 8 i) (m.data.toList.getD (2 + i) 0) w
    have h2 : ∀ acc w', Sets c a _ True False (Core.pageWriteLoop c m r n (i + 1) acc) w' := fun acc w' => ih (i + 1) acc w' (by omega) (by omega)
    unfold Sets
    rw [e]
    change Sets c a _ True False _ w
    have hne : ∀ x : U8, r + BitVec.ofNat 8 i = x → r.toNat + i = x.toNat := fun x hx => by rw [← hx, hadd]
    by_cases hpg : w.v.page = 0
    · by_cases hlt : r.toNat + i < a.toNat
      · have := (h1.bind (f := fun x => Core.pageWriteLoop c m r n (i + 1) (acc ++ [x.1])) (fun _ => h2 _ _) (fun h => if_neg (fun h' => by have := hne _ h.2; simp at this; omega))).mono (r' := True) (q := False) (fun _ => trivial) (fun h => h.elim)
        rw [if_neg (c := w.v.page = 0 ∧ r + BitVec.ofNat 8 i = a) (fun h => by have := hne _ h.2; omega), Option.or_none] at this
        have hk := h1.2 (fun h => by rcases h.2 with h | h | h <;> have := hne _ h <;> simp at this <;> omega)
        rw [hk] at this
        have e2 : (w.v.page = 0 ∧ r.toNat + (i + 1) ≤ a.toNat ∧ a.toNat < r.toNat + (i + 1) + n) ↔
          (w.v.page = 0 ∧ r.toNat + i ≤ a.toNat ∧ a.toNat < r.toNat + i + (n + 1)) := by
          constructor <;> (rintro ⟨q1, q2, q3⟩; refine ⟨q1, ?_, ?_⟩ <;> omega)
        simp only [e2] at this
        exact this
      · have := (h1.bind (f := fun x => Core.pageWriteLoop c m r n (i + 1) (acc ++ [x.1])) (fun _ => h2 _ _) (fun h => if_neg (fun h' => by have := hne _ h.2; simp at this; omega))).mono (r' := True) (q := False) (fun _ => trivial) (fun h => h.elim)
        rw [if_neg (c := _ ∧ _ ∧ _) (fun h => by have := h.2; omega), Option.none_or] at this
        by_cases heq : r.toNat + i = a.toNat
        · rw [if_pos ⟨hpg, BitVec.eq_of_toNat_eq (by rw [hadd, heq])⟩] at this
          rw [if_pos ⟨hpg, by omega, by omega⟩]
          have e3 : m.data[2 + (a.toNat - r.toNat)]? = some (m.data.toList.getD (2 + i) 0) := by
            rw [show a.toNat - r.toNat = i by omega, Vector.getElem?_eq_getElem (by omega)]
            simp [List.getD, show 2 + i < 8 by omega]
          rw [e3]
          exact this
        · rw [if_neg (fun h => heq (hne _ h.2))] at this
          rw [if_neg (fun h => by have := h.2; omega)]
          exact this
    · have := (h1.bind (f := fun x => Core.pageWriteLoop c m r n (i + 1) (acc ++ [x.1])) (fun _ => h2 _ _) (fun h => if_neg (fun h' => by have := hne _ h.2; simp at this; omega))).mono (r' := True) (q := False) (fun _ => trivial) (fun h => h.elim)
      have hk := h1.2 (fun h => hpg h.1)
      rw [hk, if_neg (fun h => hpg h.1), if_neg (fun h => hpg h.1)] at this
      rw [if_neg (fun h => hpg h.1)]
      exact this

theorem sets_extLoop {c : Ctx} {a : U8} (ha : plain a) (m : Msg) (page : U16) (r : U8) (n i : Nat) (acc : List U8) (w : W) (hr : r.toNat + i + n ≤ 256)
    (hm : 4 + i + n ≤ 8) :
    Sets c a (if page = 0 ∧ r.toNat + i ≤ a.toNat ∧ a.toNat < r.toNat + i + n then m.data[4 + (a.toNat - r.toNat)]? else none) True False
      (Core.extWriteLoop c m page r n i acc) w := by
  induction n generalizing i acc w with
  | zero =>
    rw [if_neg (by omega)]
    exact .same rfl ⟨[], by simp [Core.extWriteLoop]⟩
  | succ n ih =>
    have hplain := ha
    unfold plain at hplain
    have e : Core.extWriteLoop c m page r (n + 1) i acc w =
        (Core.writeRegister c page (r + BitVec.ofNat 8 i) (m.data.toList.getD (4 + i) 0) >>= fun x =>
          Core.extWriteLoop c m page r n (i + 1) (acc ++ [x.1])) w := by
      rw [Core.extWriteLoop, bind_run, dataAt_run m _ (by omega)]
    have hadd : (r + BitVec.ofNat 8 i).toNat = r.toNat + i := by
      rw [BitVec.toNat_add, BitVec.toNat_ofNat]
      omega
    have h1 := sets_write (c := c) ha page (r + BitVec.ofNat 8 i) (m.data.toList.getD (4 + i) 0) w
    have h2 : ∀ acc w', Sets c a _ True False (Core.extWriteLoop c m page r n (i + 1) acc) w' := fun acc w' => ih (i + 1) acc w' (by omega) (by omega)
    unfold Sets
    rw [e]
    change Sets c a _ True False _ w
    have hne : ∀ x : U8, r + BitVec.ofNat 8 i = x → r.toNat + i = x.toNat := fun x hx => by rw [← hx, hadd]
    have := (h1.bind (f := fun x => Core.extWriteLoop c m page r n (i + 1) (acc ++ [x.1])) (fun _ => h2 _ _) (fun h => if_neg (fun h' => by have := hne _ h.2; simp at this; omega))).mono (r' := True) (q := False) (fun _ => trivial) (fun h => h.elim)
    by_cases heq : page = 0 ∧ r.toNat + i = a.toNat
    · rw [if_neg (c := _ ∧ _ ∧ _) (fun h => by have := h.2; omega), Option.none_or, if_pos ⟨heq.1, BitVec.eq_of_toNat_eq (by rw [hadd, heq.2])⟩] at this
      rw [if_pos ⟨heq.1, by omega, by omega⟩]
      have e3 : m.data[4 + (a.toNat - r.toNat)]? = some (m.data.toList.getD (4 + i) 0) := by
        rw [show a.toNat - r.toNat = i by omega, Vector.getElem?_eq_getElem (by omega)]
        simp [List.getD, show 4 + i < 8 by omega]
      rw [e3]
      exact this
    · rw [if_neg (c := page = 0 ∧ r + BitVec.ofNat 8 i = a) (fun h => heq ⟨h.1, hne _ h.2⟩), Option.or_none] at this
      have e2 : (page = 0 ∧ r.toNat + (i + 1) ≤ a.toNat ∧ a.toNat < r.toNat + (i + 1) + n) ↔
        (page = 0 ∧ r.toNat + i ≤ a.toNat ∧ a.toNat < r.toNat + i + (n + 1)) := by
        constructor <;> (rintro ⟨q1, q2, q3⟩; have : r.toNat + i ≠ a.toNat := fun e => heq ⟨q1, e⟩; refine ⟨q1, ?_, ?_⟩ <;> omega)
      simp only [e2] at this
      exact this

theorem pay {m : Msg} (k : Nat) : (payload m)[k]? = if k < m.size.toNat then m.data[k]? else none := by
  unfold payload
  rw [List.getElem?_take]
  split <;> simp

theorem sets_tx {c : Ctx} {a : U8} (nick prio typ : U8) (l : List U8) (w : W) : Sets c a none False False (Core.txFrom c nick prio typ l) w := by
  obtain ⟨tp, ub, t, h, ht⟩ := writeMessage_frame c ⟨prio, Transport.CLASS_PROTOCOL, typ, nick, c.hardCoded, BitVec.ofNat 8 l.length, bytes8 l⟩ w
  have e : (Core.txFrom c nick prio typ l w).2 = { w with tp := tp, ub := ub, out := w.out ++ t } := h
  refine .same (by rw [e]) ⟨t, by rw [e], ?_⟩
  rcases ht with rfl | ⟨rfl, -⟩ <;> simp

theorem sets_rsp {c : Ctx} {a : U8} (ha : plain a) (p : Prop) [Decidable p] (addr v : U8) (w : W) :
    Sets c a none False False (whenM p (Core.sendRegisterReadWriteRsp c addr v)) w :=
  (sets_foot (c := c) (A := [.tx]) (.whenM fun _ => .sendRegisterReadWriteRsp (by decide)) ha (by
    intro x hx
    simp only [List.mem_cons, List.not_mem_nil, or_false] at hx
    subst hx
    refine .inr ?_
    rintro b ⟨_, _, h⟩
    cases h) w).mono (fun h => absurd h (by decide)) fun h => h.elim

theorem sets_read {c : Ctx} {a : U8} (ha : plain a) (page : U16) (addr : U8) (w : W) : Sets c a none False True (Core.readRegister c page addr) w :=
  (sets_foot (c := c) (A := [.alarm, .appRead]) (.readRegister (List.Subset.refl _)) ha (by
    intro x hx
    simp only [List.mem_cons, List.not_mem_nil, or_false] at hx
    refine .inr ?_
    rcases hx with rfl | rfl
    · exact fun b h => h
    · rintro b ⟨_, _, _, h⟩
      cases h) w).mono (fun h => absurd h (by decide)) fun _ => by decide

theorem Sets.when {c : Ctx} {a : U8} {x : Option U8} {p : Prop} [Decidable p] {m : M Unit} {w : W} (h : p → Sets c a x True False m w) :
    Sets c a (if p then x else none) True False (whenM p m) w := by
  by_cases hp : p
  · have e : (whenM p m : M Unit) = m := by unfold whenM; rw [if_pos hp]
    rw [if_pos hp, e]
    exact h hp
  · have e : (whenM p m : M Unit) = pure () := by unfold whenM; rw [if_neg hp]
    rw [if_neg hp, e]
    exact .same rfl ⟨[], by simp, by simp⟩

theorem Sets.eq {α : Type} {c : Ctx} {a : U8} {x y : Option U8} {r p : Prop} {m : M α} {w : W} (h : Sets c a x r p m w) (e : x = y) : Sets c a y r p m w := e ▸ h

theorem written_other {nick : U8} {page : U16} {cur : U8} {m : Msg} {a : U8} (h : m.typ ∉ ([11, 25, 29, 30, 38] : List U8)) :
    written nick page cur m a = none := by
  simp only [List.mem_cons, List.not_mem_nil, or_false, not_or] at h
  obtain ⟨h1, h2, h3, h4, h5⟩ := h
  unfold written
  simp only [if_neg h1, if_neg h2, if_neg h3, if_neg h4, if_neg h5, ite_self]

theorem len {m : Msg} (hs : m.size.toNat ≤ 8) : (payload m).length = m.size.toNat := by
  unfold payload
  simp [hs]

theorem sub2 {m : Msg} (h : 3 ≤ m.size.toNat) : (m.size - 2).toNat = m.size.toNat - 2 := by
  rw [BitVec.toNat_sub_of_le (by rw [BitVec.le_def]; exact Nat.le_trans (by decide) h)]
  rfl

theorem sub4 {m : Msg} (h : 5 ≤ m.size.toNat) : (m.size - 4).toNat = m.size.toNat - 4 := by
  rw [BitVec.toNat_sub_of_le (by rw [BitVec.le_def]; exact Nat.le_trans (by decide) h)]
  rfl

theorem word_zero {x y : U8} : mkWord x y = 0 ↔ x = 0 ∧ y = 0 := by
  refine ⟨mkWord_zero, ?_⟩
  rintro ⟨rfl, rfl⟩
  rfl

/-- What the handling of an event which writes registers does. -/
theorem sets_handler {c : Ctx} {a : U8} (ha : plain a) {m : Msg} (hs : m.size.toNat ≤ 8) (ht : m.typ ∈ ([11, 25, 29, 30, 38] : List U8)) (w : W) :
    Sets c a (written w.v.nick w.v.page (w.ps (loc c a)) m a) True False (Core.handleProtocolClassType c m) w := by
  have hpl := ha
  unfold plain at hpl
  have d0 : m.data[0]? = some m.data[0] := rfl
  have d1 : m.data[1]? = some m.data[1] := rfl
  have d2 : m.data[2]? = some m.data[2] := rfl
  have d3 : m.data[3]? = some m.data[3] := rfl
  simp only [List.mem_cons, List.not_mem_nil, or_false] at ht
  rcases ht with h | h | h | h | h
  · rw [handler11 h]
    have key : Sets c a (if m.data[1] = a then some m.data[2] else none) True False (do
        let r ← Core.writeRegister c 0 m.data[1] m.data[2]
        whenM (r.2 = false) (Core.sendRegisterReadWriteRsp c m.data[1] r.1)) w := by
      have := (sets_write (c := c) ha 0 m.data[1] m.data[2] w).bind
        (f := fun r => whenM (r.2 = false) (Core.sendRegisterReadWriteRsp c m.data[1] r.1)) (fun _ => sets_rsp ha _ _ _ _) (fun _ => rfl)
      simp only [Option.none_or, true_and] at this
      exact this.mono (fun _ => trivial) fun h => h.elim
    refine (Sets.when (p := m.size = 3 ∧ w.v.nick = m.data[0]) fun _ => key).eq ?_
    unfold written
    simp only [h]
    by_cases h3 : m.size = 3
    · rw [payload_eq3 h3]
      by_cases hn : w.v.nick = m.data[0]
      · simp [h3, hn]
      · simp [hn, Ne.symm hn]
    · have : (payload m).length ≠ 3 := fun e => h3 (BitVec.eq_of_toNat_eq (by rw [len hs] at e; exact e))
      simp [this]
      exact fun e => absurd e h3
  · rw [handler25 h]
    have key : 3 ≤ m.size.toNat → Sets c a (if w.v.page = 0 ∧ m.data[1].toNat ≤ a.toNat then (payload m)[2 + (a.toNat - m.data[1].toNat)]? else none) True False (do
        let acc ← Core.pageWriteLoop c m m.data[1] (Core.limitNum m.data[1] (m.size - 2)) 0 [0]
        Core.txFrom c w.v.nick 3 26 acc) w := fun h3 => by
      have hsub := sub2 h3
      have hlim : Core.limitNum m.data[1] (m.size - 2) ≤ m.size.toNat - 2 ∧ m.data[1].toNat + Core.limitNum m.data[1] (m.size - 2) ≤ 256 ∧
          (m.data[1].toNat ≤ a.toNat → Core.limitNum m.data[1] (m.size - 2) = m.size.toNat - 2) := by
        unfold Core.limitNum
        rw [hsub]
        have := m.data[1].isLt
        split <;> omega
      have := (sets_pageLoop (c := c) ha m m.data[1] (Core.limitNum m.data[1] (m.size - 2)) 0 [0] w (by omega) (by omega)).bind (f := fun acc => Core.txFrom c w.v.nick 3 26 acc) (fun _ => sets_tx w.v.nick 3 26 _ _) (fun _ => rfl)
      refine (this.mono (fun _ => trivial) fun h => h.elim).eq ?_
      rw [Option.none_or, pay]
      by_cases hc : w.v.page = 0 ∧ m.data[1].toNat ≤ a.toNat
      · obtain ⟨q1, q2⟩ := hc
        rw [if_pos (c := _ ∧ _) ⟨q1, q2⟩, hlim.2.2 q2]
        by_cases hlt : 2 + (a.toNat - m.data[1].toNat) < m.size.toNat
        · rw [if_pos hlt, if_pos ⟨q1, by omega, by omega⟩]
        · rw [if_neg hlt, if_neg (fun h => by have := h.2; omega)]
      · rw [if_neg hc, if_neg (fun h => hc ⟨h.1, by have := h.2.1; omega⟩)]
    refine (Sets.when (p := 3 ≤ m.size.toNat ∧ w.v.nick = m.data[0]) fun hp => key hp.1).eq ?_
    unfold written
    simp only [h]
    by_cases h1 : 1 < m.size.toNat
    · rw [pay 0, if_pos (show 0 < m.size.toNat by omega), pay 1, if_pos h1, d0, d1]
      by_cases hn : w.v.nick = m.data[0]
      · by_cases h3 : 3 ≤ m.size.toNat
        · simp [hn, h3]
        · have : ∀ k, (payload m)[2 + k]? = none := fun k => by rw [pay, if_neg (by omega)]
          simp [this, h3]
      · simp [hn, Ne.symm hn]
    · rw [if_neg (by omega)]
      rw [pay (k := 1), if_neg h1]
      simp
  · rw [handler29 h]
    have key : Sets c a (if m.data[1] = a then some (w.ps (loc c a) + 1) else none) True False (do
        let v ← Core.readRegister c 0 m.data[1]
        let r ← Core.writeRegister c 0 m.data[1] (v + 1)
        whenM (r.2 = false) (Core.sendRegisterReadWriteRsp c m.data[1] r.1)) w := by
      have := (sets_read (c := c) ha 0 m.data[1] w).bind
        (f := fun v => Core.writeRegister c 0 m.data[1] (v + 1) >>= fun r => whenM (r.2 = false) (Core.sendRegisterReadWriteRsp c m.data[1] r.1))
        (fun _ => (sets_write (c := c) ha 0 m.data[1] _ _).bind (fun _ => sets_rsp ha _ _ _ _) (fun _ => rfl)) (fun h => h.elim)
      simp only [Option.none_or, true_and, Option.or_none] at this
      refine (this.mono (fun _ => trivial) fun h => h.elim).eq ?_
      split
      · rename_i e
        rw [e, read_plain ha]
      · rfl
    refine (Sets.when (p := m.size = 2 ∧ w.v.nick = m.data[0]) fun _ => key).eq ?_
    unfold written
    simp only [h]
    by_cases h2 : m.size = 2
    · rw [payload_eq2 h2]
      by_cases hn : w.v.nick = m.data[0]
      · simp [h2, hn]
      · simp [hn, Ne.symm hn]
    · have : ∀ x y, payload m ≠ [x, y] := fun x y e => h2 (BitVec.eq_of_toNat_eq (by
        have := congrArg List.length e
        rw [len hs] at this
        exact this))
      simp [this]
      exact fun e => absurd e h2
  · rw [handler30 h]
    have key : Sets c a (if m.data[1] = a then some (w.ps (loc c a) - 1) else none) True False (do
        let v ← Core.readRegister c 0 m.data[1]
        let r ← Core.writeRegister c 0 m.data[1] (v - 1)
        whenM (r.2 = false) (Core.sendRegisterReadWriteRsp c m.data[1] r.1)) w := by
      have := (sets_read (c := c) ha 0 m.data[1] w).bind
        (f := fun v => Core.writeRegister c 0 m.data[1] (v - 1) >>= fun r => whenM (r.2 = false) (Core.sendRegisterReadWriteRsp c m.data[1] r.1))
        (fun _ => (sets_write (c := c) ha 0 m.data[1] _ _).bind (fun _ => sets_rsp ha _ _ _ _) (fun _ => rfl)) (fun h => h.elim)
      simp only [Option.none_or, true_and, Option.or_none] at this
      refine (this.mono (fun _ => trivial) fun h => h.elim).eq ?_
      split
      · rename_i e
        rw [e, read_plain ha]
      · rfl
    refine (Sets.when (p := m.size = 2 ∧ w.v.nick = m.data[0]) fun _ => key).eq ?_
    unfold written
    simp only [h]
    by_cases h2 : m.size = 2
    · rw [payload_eq2 h2]
      by_cases hn : w.v.nick = m.data[0]
      · simp [h2, hn]
      · simp [hn, Ne.symm hn]
    · have : ∀ x y, payload m ≠ [x, y] := fun x y e => h2 (BitVec.eq_of_toNat_eq (by
        have := congrArg List.length e
        rw [len hs] at this
        exact this))
      simp [this]
      exact fun e => absurd e h2
  · rw [handler38 h]
    have key : 5 ≤ m.size.toNat → Sets c a (if (m.data[1] = 0 ∧ m.data[2] = 0) ∧ m.data[3].toNat ≤ a.toNat then
        (payload m)[4 + (a.toNat - m.data[3].toNat)]? else none) True False (do
        let num : U8 := m.size - 4
        let n := if (0xFF - num.toNat) + 1 < m.data[3].toNat then (0xFF - m.data[3].toNat) + 1 else num.toNat
        let acc ← Core.extWriteLoop c m (mkWord m.data[1] m.data[2]) m.data[3] n 0 [0, m.data[1], m.data[2], m.data[3]]
        Core.txFrom c w.v.nick 3 39 acc) w := fun h5 => by
      have hsub := sub4 h5
      dsimp only
      rw [hsub]
      generalize hn : (if (0xFF - (m.size.toNat - 4)) + 1 < m.data[3].toNat then (0xFF - m.data[3].toNat) + 1 else (m.size.toNat - 4)) = n
      have hlim : n ≤ m.size.toNat - 4 ∧ m.data[3].toNat + n ≤ 256 ∧ (m.data[3].toNat ≤ a.toNat → n = m.size.toNat - 4) := by
        have := m.data[3].isLt
        split at hn <;> omega
      have := (sets_extLoop (c := c) ha m (mkWord m.data[1] m.data[2]) m.data[3] n 0 [0, m.data[1], m.data[2], m.data[3]] w (by omega) (by omega)).bind
        (f := fun acc => Core.txFrom c w.v.nick 3 39 acc) (fun _ => sets_tx w.v.nick 3 39 _ _) (fun _ => rfl)
      refine (this.mono (fun _ => trivial) fun h => h.elim).eq ?_
      rw [Option.none_or, pay]
      by_cases hc : (m.data[1] = 0 ∧ m.data[2] = 0) ∧ m.data[3].toNat ≤ a.toNat
      · obtain ⟨q1, q2⟩ := hc
        rw [if_pos (c := _ ∧ _) ⟨q1, q2⟩, hlim.2.2 q2]
        by_cases hlt : 4 + (a.toNat - m.data[3].toNat) < m.size.toNat
        · rw [if_pos hlt, if_pos ⟨word_zero.mpr q1, by omega, by omega⟩]
        · rw [if_neg hlt, if_neg (fun h => by have := h.2; omega)]
      · rw [if_neg hc, if_neg (fun h => hc ⟨word_zero.mp h.1, by have := h.2.1; omega⟩)]
    refine (Sets.when (p := 5 ≤ m.size.toNat ∧ w.v.nick = m.data[0]) fun hp => key hp.1).eq ?_
    unfold written
    simp only [h]
    by_cases h1 : 3 < m.size.toNat
    · rw [pay 0, if_pos (show 0 < m.size.toNat by omega), pay 3, if_pos h1, d0, d3, pay 1, if_pos (show 1 < m.size.toNat by omega), pay 2,
        if_pos (show 2 < m.size.toNat by omega), d1, d2]
      by_cases hn : w.v.nick = m.data[0]
      · by_cases h3 : 5 ≤ m.size.toNat
        · simp [hn, h3, and_assoc]
        · have : ∀ k, (payload m)[4 + k]? = none := fun k => by rw [pay, if_neg (by omega)]
          simp [this, h3]
      · simp [hn, Ne.symm hn]
    · rw [if_neg (by omega)]
      rw [pay (k := 3), if_neg h1]
      simp

/-! ### Operations -/

/-- Steps which leave the plain registers alone, or restore the factory settings. -/
def _root_.Vscp.Act.away : Act → Bool
  | .flags | .user => false
  | _ => true

theorem away_emits {c : Ctx} {a : U8} (ha : plain a) {x : Act} (h : x.away = true) : x = .restore ∨ ∀ b, ¬x.emits c (.psW (loc c a) b) := by
  by_cases hd : x.dry = true
  · exact .inr fun b => dry_emits hd
  have hl := loc_lt (c := c.toCfg) ha
  have hm := Restore.layout_mono c
  have hlow := Restore.layout_low c
  have e0 : Ps.addrBootFlag c = 0 := rfl
  have e1 : Ps.addrNickname c = Ps.addrBootFlag c + Ps.sizeBootFlag c := rfl
  cases x <;> first | exact absurd rfl hd | exact absurd h (by decide) | exact .inl rfl | skip
  · refine .inr ?_
    rintro b ⟨_, h⟩
    have := (Out.psW.inj h).1
    omega
  · refine .inr ?_
    rintro b ⟨_, h⟩
    have := (Out.psW.inj h).1
    omega
  · refine .inr ?_
    rintro b ⟨_, h⟩
    have := (Out.psW.inj h).1
    omega
  · refine .inr ?_
    rintro b ⟨_, _, _, h⟩
    have := (Out.psW.inj h).1
    omega
  · refine .inr ?_
    rintro b ⟨_, _, _, h⟩
    have := (Out.psW.inj h).1
    omega
  · refine .inr ?_
    rintro b (⟨_, _, _, _, h⟩ | ⟨x, v, hx, h⟩)
    · cases h
    · have := (Out.psW.inj h).1
      omega

theorem away_steps {c : Ctx} {A : List Act} {w w' : W} (hs : Steps c True A w w') {a : U8} (ha : plain a) (hA : A.all Act.away = true) :
    ∃ t, w'.out = w.out ++ t ∧ (.portRestore ∈ t → .restore ∈ A) ∧ w'.ps (loc c a) = if .portRestore ∈ t then factory a else w.ps (loc c a) :=
  steps_sets hs ha fun x hx => away_emits ha (List.all_eq_true.mp hA x hx)

theorem sets_event {c : Ctx} {a : U8} (ha : plain a) {m : Msg} (hs : m.size.toNat ≤ 8) (w : W) :
    Sets c a (written w.v.nick w.v.page (w.ps (loc c a)) m a) True False (Core.handleProtocolClassType c m) w := by
  by_cases ht : m.typ ∈ ([11, 25, 29, 30, 38] : List U8)
  · exact sets_handler ha hs ht w
  · rw [written_other ht]
    have hA : (Wear.typeActs m.typ).all Act.away = true := by
      simp only [List.mem_cons, List.not_mem_nil, or_false] at ht
      unfold Wear.typeActs
      repeat' split
      all_goals first | rfl | contradiction
    obtain ⟨t, h1, h2, h3⟩ := away_steps (handler_foot (c := c) (m := m) w) ha hA
    exact ⟨⟨t, h1, fun _ => trivial, h3⟩, fun h => h.elim⟩

/-- One operation. -/
theorem op_plain {c : Ctx} {a : U8} (ha : plain a) (op : Op) (w : W) (hs : ∀ rx m, op = .process rx → Takes c rx w m → m.size.toNat ≤ 8) :
    (stepOp c op w).2.ps (loc c a) = if factoryReset w (stepOp c op w).2 then factory a else
      afterOp c w a (w.ps (loc c a)) op := by
  have fin : ∀ (w' : W) (x : U8), (∃ t, w'.out = w.out ++ t ∧ w'.ps (loc c a) = if .portRestore ∈ t then factory a else x) →
      w'.ps (loc c a) = if factoryReset w w' then factory a else x := by
    rintro w' x ⟨t, h1, h2⟩
    rw [h2]
    simp only [factory_of h1]
  by_cases hp : ∃ rx, op = .process rx
  · obtain ⟨rx, rfl⟩ := hp
    refine fin _ _ ?_
    change ∃ t : List Out, (Core.process c rx w).2.out = w.out ++ t ∧
      (Core.process c rx w).2.ps (loc c a) = if .portRestore ∈ t then factory a else afterCycle c rx w a (w.ps (loc c a))
    by_cases ht : ∃ m, m.cls = 0 ∧ Takes c rx w m
    · obtain ⟨m, hm, ht⟩ := ht
      have e : afterCycle c rx w a (w.ps (loc c a)) = (written w.v.nick w.v.page (w.ps (loc c a)) m a).getD (w.ps (loc c a)) := by
        unfold afterCycle
        rw [ht.2.1]
        simp only
        rw [if_pos ⟨ht, hm⟩]
      obtain ⟨w1, t1, ho1, hp1, hs1, htail⟩ := takes_cycle ht hm
      obtain ⟨⟨t2, h2, -, h2'⟩, -⟩ := sets_event (c := c) ha (hs rx m rfl ht) w1
      obtain ⟨t3, h3, h3', h3''⟩ := away_steps htail.steps ha (by decide)
      have e1 := hs1 .nick (by decide)
      have e2 := hs1 .page (by decide)
      have e3 := hs1 .ps (by decide)
      simp only [Comp.same] at e1 e2 e3
      have n1 : .portRestore ∉ t1 := fun h => by obtain ⟨_, h⟩ := hp1 _ h; cases h
      have n3 : .portRestore ∉ t3 := fun h => absurd (h3' h) (by decide)
      refine ⟨t1 ++ (t2 ++ t3), by rw [h3, h2, ho1]; simp only [List.append_assoc], ?_⟩
      rw [h3'', if_neg n3, h2', e1, e2, e3, e]
      simp only [List.mem_append, n1, n3, or_false, false_or]
    · have e : afterCycle c rx w a (w.ps (loc c a)) = w.ps (loc c a) := by
        unfold afterCycle
        split
        · rename_i m _
          rw [if_neg fun h => ht ⟨m, h.2, h.1⟩]
        · rfl
      rw [e]
      by_cases hst : w.v.st = .active
      · obtain ⟨w1, t1, ho1, hp1, hs1, htail⟩ := other_cycle (c := c) (rx := rx) hst (fun m hm h => ht ⟨m, hm, h⟩)
        obtain ⟨t3, h3, h3', h3''⟩ := away_steps htail.steps ha (by decide)
        have e3 := hs1 .ps (by decide)
        simp only [Comp.same] at e3
        have n1 : .portRestore ∉ t1 := fun h => by rcases hp1 _ h with ⟨_, _, h⟩ | ⟨_, h⟩ <;> cases h
        refine ⟨t1 ++ t3, by rw [h3, ho1, List.append_assoc], ?_⟩
        rw [h3'', e3]
        simp only [List.mem_append, n1, false_or]
      · obtain ⟨t3, h3, -, h3''⟩ := away_steps (process_state c rx w) ha (by
          cases h : w.v.st with
          | active => exact absurd h hst
          | _ => decide)
        have e3 := pre_same c rx w .ps (by decide)
        simp only [Comp.same] at e3
        rw [pre_out] at h3
        rw [e3] at h3''
        exact ⟨t3, h3, h3''⟩
  · have hp' : ∀ rx, op ≠ .process rx := fun rx e => hp ⟨rx, e⟩
    obtain ⟨t, h1, -, h2⟩ := away_steps (op_steps c op hp' w) ha (by cases op <;> rfl)
    have := fin _ _ ⟨t, h1, h2⟩
    cases op with
    | process rx => exact absurd rfl (hp' rx)
    | _ => exact this

/-- C102: a register holds what was written to it last: whatever the node does and receives in between (cycles in any state, other events, calls,
restarts), the node control flags and the user id read as the last write, page write, increment, decrement, or extended page write of this register
left them, or as the factory setting, if the factory settings were restored since. -/
theorem C102_history {c : Ctx} {a : U8} (ha : plain a) (ops : List Op) (w : W) (hs : Short c ops w) :
    (Core.readRegister c 0 a (runOps c ops w)).1 = lastWrite c a ops w (Core.readRegister c 0 a w).1 := by
  rw [read_plain ha, read_plain ha]
  induction ops generalizing w with
  | nil => rfl
  | cons op ops ih =>
    rw [runOps, ih _ hs.2, lastWrite, op_plain ha op w hs.1]

/-! ### Histories from power-on -/

theorem short_of {c : Ctx} (h : GoodCfg c) (ops : List Op) (hops : ∀ op ∈ ops, op.Ok) (w : W) (hl : LbOk c w) : Short c ops w := by
  induction ops generalizing w with
  | nil => trivial
  | cons op ops ih =>
    refine ⟨?_, ih (fun o ho => hops o (List.mem_cons_of_mem _ ho)) _ ?_⟩
    · rintro rx m rfl ht
      refine (hl.read rx ?_).2.2 m ht.2.1
      rintro m' rfl
      exact hops _ (List.mem_cons_self ..)
    · have := (runOps_steps h.notBad h.lb [op] (fun o ho => hops o (by simp at ho; simp [ho])) w hl).lbOk h.notBad h.lb hl
      exact this.1

/-- C102: from power-on, with events of at most 8 bytes from the bus. -/
theorem C102_node {c : Ctx} (h : GoodCfg c) {a : U8} (ha : plain a) (ok : Tmr → Bool) (ops : List Op) (hops : ∀ op ∈ ops, op.Ok) (w : W) :
    (Core.readRegister c 0 a (runOps c (.init ok :: ops) w)).1 = lastWrite c a (.init ok :: ops) w (Core.readRegister c 0 a w).1 :=
  C102_history ha _ w ⟨fun _ _ e => (by cases e), short_of h ops hops _ (init_lbOk h.lb ok w).1⟩

/-- C102: the node tells it to everybody who asks: the answer to a read event contains what was written to the register last. -/
theorem C102_read {c : Ctx} (h : GoodCfg c) {a : U8} (ha : plain a) (ok : Tmr → Bool) (ops : List Op) (hops : ∀ op ∈ ops, op.Ok) (w : W)
    {rx : Option Msg} {m : Msg} (ht : Takes c rx (runOps c (.init ok :: ops) w) m) (hm : Request m 9 [(runOps c (.init ok :: ops) w).v.nick, a]) :
    ∃ b, .tx (event c (runOps c (.init ok :: ops) w).v.nick 3 10 [a, lastWrite c a (.init ok :: ops) w (Core.readRegister c 0 a w).1]) b ∈
      (stepOp c (.process rx) (runOps c (.init ok :: ops) w)).2.out.drop (runOps c (.init ok :: ops) w).out.length := by
  rw [← C102_node h ha ok ops hops w]
  generalize runOps c (.init ok :: ops) w = w0 at *
  obtain ⟨w1, t1, ho1, -, hs1, htail⟩ := takes_cycle ht hm.cls
  have e1 := hs1 .nick (by decide)
  have e3 := hs1 .ps (by decide)
  simp only [Comp.same] at e1 e3
  rw [← e1] at hm
  obtain ⟨t2, h2, -⟩ := ((Foot.readRegister (List.Subset.refl _) : Foot c True [.alarm, .appRead] (Core.readRegister c 0 a)) w1).outs
  obtain ⟨t3, h3, -⟩ := htail.steps.outs
  rw [handle_read c w1 m a hm, sent_out, h2, ho1] at h3
  have e : (stepOp c (.process rx) w0).2 = (Core.process c rx w0).2 := rfl
  rw [e, h3, e1, read_plain ha, read_plain ha, e3]
  simp only [List.append_assoc, List.drop_left]
  exact ⟨_, List.mem_append_right _ (List.mem_append_right _ (List.mem_append_left _ (List.mem_singleton.mpr rfl)))⟩

/-! ### Applications which call the framework in their callbacks -/

/-- The end of a cycle: only a factory restore changes the register. -/
theorem tail_sets {c : Ctx} {P : Msg → Prop} {w w' : W} (h : StepsB tailActs c True P w w') {a : U8} (ha : plain a) :
    ∃ t, w'.out = w.out ++ t ∧ w'.ps (loc c a) = if .portRestore ∈ t then factory a else w.ps (loc c a) := by
  obtain ⟨L, -, hs⟩ := h
  obtain ⟨t, h1, -, h2⟩ := away_steps hs ha (by
    rw [List.all_append, Bool.and_eq_true]
    refine ⟨by decide, List.all_eq_true.mpr fun x hx => ?_⟩
    obtain ⟨m, -, rfl⟩ := List.mem_map.1 hx
    rfl)
  exact ⟨t, h1, h2⟩

/-- One operation of such an application, which lets the framework handle the protocol events. -/
theorem opC_plain {c : Ctx} {cb : Callbacks} (hcb : CbOk cb) (hpn : c.protoNotify = false) {a : U8} (ha : plain a) (op : Op) (w : W)
    (hs : ∀ rx m, op = .process rx → Takes c rx w m → m.size.toNat ≤ 8) :
    (stepOpC c cb op w).2.ps (loc c a) = if factoryReset w (stepOpC c cb op w).2 then factory a else afterOp c w a (w.ps (loc c a)) op := by
  by_cases hp : ∃ rx, op = .process rx ∧ w.v.st = .active
  · obtain ⟨rx, rfl, hst⟩ := hp
    have e1 := pre_same c rx w .nick (by decide)
    have e2 := pre_same c rx w .page (by decide)
    have e3 := pre_same c rx w .ps (by decide)
    have e4 := pre_same c rx w .st (by decide)
    simp only [Comp.same] at e1 e2 e3 e4
    rw [hst] at e4
    suffices ∃ t, (Core.processC c cb rx w).2.out = w.out ++ t ∧
        (Core.processC c cb rx w).2.ps (loc c a) = if .portRestore ∈ t then factory a else afterCycle c rx w a (w.ps (loc c a)) by
      obtain ⟨t, h1, h2⟩ := this
      refine h2.trans ?_
      change _ = if factoryReset w (Core.processC c cb rx w).2 then factory a else _
      simp only [factory_of h1]
      rfl
    by_cases hm : ∃ m, (Transport.readMessage c rx w).1 = some m ∧ m.cls = 0
    · obtain ⟨m, hr, hm⟩ := hm
      have ht : Takes c rx w m := ⟨hst, hr, fun h => by rw [hpn] at h; exact absurd h (by decide)⟩
      have hr' : (preProcess c rx w).1 = some m := by rw [preProcess_rx]; exact hr
      obtain ⟨⟨t2, h2, -, h2'⟩, -⟩ := sets_event (c := c) ha (hs rx m rfl ht) (preProcess c rx w).2
      obtain ⟨t3, h3, h3'⟩ := tail_sets (protocol_cycle hcb hpn e4 hr' hm) ha
      have e : afterCycle c rx w a (w.ps (loc c a)) = (written w.v.nick w.v.page (w.ps (loc c a)) m a).getD (w.ps (loc c a)) := by
        unfold afterCycle
        rw [hr]
        simp only
        rw [if_pos ⟨ht, hm⟩]
      rw [pre_out] at h2
      refine ⟨t2 ++ t3, by rw [h3, h2, List.append_assoc], ?_⟩
      rw [h3', h2', e1, e2, e3, e]
      simp only [List.mem_append]
      by_cases q : .portRestore ∈ t3 <;> simp [q]
    · have hm' : ∀ m, (preProcess c rx w).1 = some m → m.cls ≠ 0 := by
        intro m hr h0
        rw [preProcess_rx] at hr
        exact hm ⟨m, hr, h0⟩
      obtain ⟨t3, h3, h3'⟩ := tail_sets (other_cycleC hcb e4 hm') ha
      have e : afterCycle c rx w a (w.ps (loc c a)) = w.ps (loc c a) := by
        unfold afterCycle
        split
        · rename_i m h
          rw [if_neg fun h' => hm ⟨m, h, h'.2⟩]
        · rfl
      rw [pre_out] at h3
      refine ⟨t3, h3, ?_⟩
      rw [h3', e3, e]
  · have e : (stepOpC c cb op w).2 = (stepOp c op w).2 := by
      cases op with
      | process rx =>
        have hst : w.v.st ≠ .active := fun h => hp ⟨rx, rfl, h⟩
        have e4 := pre_same c rx w .st (by decide)
        simp only [Comp.same] at e4
        show (Core.processC c cb rx w).2 = (Core.process c rx w).2
        rw [processC_split, process_split]
        dsimp only
        unfold Core.dispatchC
        rw [M.bind_run, M.get_run]
        dsimp only
        rw [e4]
        cases h : w.v.st with
        | active => exact absurd h hst
        | _ => rfl
      | _ => rfl
    rw [e]
    exact op_plain ha op w hs

/-- C102: the same holds for an application which calls the framework in its callbacks for events, actions, time and heartbeat, whatever it calls there. -/
theorem C102_callbacks {c : Ctx} (h : GoodCfg c) {cb : Callbacks} (hcb : CbOk cb) (hpn : c.protoNotify = false) {a : U8} (ha : plain a) (ok : Tmr → Bool) (ops : List Op)
    (hops : ∀ op ∈ ops, op.Ok) (w : W) :
    (Core.readRegister c 0 a (runOpsC c cb (.init ok :: ops) w)).1 = lastWriteC c cb a (.init ok :: ops) w (Core.readRegister c 0 a w).1 := by
  have key : ∀ (ops : List Op), (∀ op ∈ ops, op.Ok) → ∀ w, LbOk c w →
      (Core.readRegister c 0 a (runOpsC c cb ops w)).1 = lastWriteC c cb a ops w (Core.readRegister c 0 a w).1 := by
    intro ops
    induction ops with
    | nil => intro _ w _; rfl
    | cons op ops ih =>
      intro hops w hl
      have hlb : LbOk c (stepOpC c cb op w).2 := by
        obtain ⟨L, -, hs⟩ := stepOpC_steps hcb (hops op (by simp)) hl
        exact (hs.lbOk h.notBad h.lb hl).1
      rw [runOpsC, ih (fun o ho => hops o (by simp [ho])) _ hlb, lastWriteC, read_plain ha, read_plain ha, opC_plain hcb hpn ha op w]
      rintro rx m rfl ht
      refine (hl.read rx ?_).2.2 m ht.2.1
      rintro m' rfl
      exact hops _ (List.mem_cons_self ..)
  have h1 := init_lbOk h.lb ok w
  rw [runOpsC, key ops hops (stepOpC c cb (.init ok) w).2 h1.1, lastWriteC, read_plain ha, read_plain ha, opC_plain hcb hpn ha (.init ok) w]
  exact fun _ _ e => (by cases e)

/-- A write, a page write, an increment, and an event for another node, with a restart in between; then a drop of the nickname which restores the factory settings. -/
def exOps : List Op := [.process none, .process (some (Ex.msg 0 11 1 [5, 0x84, 3])), .tick 700, .process (some (Ex.msg 0 25 1 [5, 0x85, 7, 8])),
  .init allOk, .process none, .process (some (Ex.msg 0 29 1 [5, 0x86])), .process (some (Ex.msg 0 11 1 [6, 0x86, 99]))]

example : GoodCfg Ex.ctx ∧ (∀ op ∈ exOps, op.Ok) ∧
    [0x83, 0x84, 0x85, 0x86].map (fun a => lastWrite Ex.ctx a (.init allOk :: exOps) (powerUp (mem 0x60)) (Core.readRegister Ex.ctx 0 a (powerUp (mem 0x60))).1) =
      [0x60, 3, 7, 9] ∧
    [0x83, 0x84].map (fun a => lastWrite Ex.ctx a (.init allOk :: (exOps ++ [.process (some (Ex.msg 0 8 1 [5, 0x40]))])) (powerUp (mem 0x60))
      (Core.readRegister Ex.ctx 0 a (powerUp (mem 0x60))).1) = [0xA0, 0] := by
  refine ⟨exGood, by simp [exOps, Op.Ok]; decide, by decide +kernel, by decide +kernel⟩

/-- An application which sends an event when it gets one, and restores the factory settings when the event is of class 30. -/
def exCb : Callbacks := fun w =>
  match w.out.getLast? with
  | some (.event m) => if m.cls = 30 then [.restore] else [.sendEvent (Ex.msg 20 3 5 [1])]
  | _ => []

theorem exCb_ok : CbOk exCb := by
  intro w op h
  unfold exCb at h
  split at h
  · split at h <;> cases List.mem_singleton.1 h <;> trivial
  · cases h

example : Ex.ctx.protoNotify = false ∧ CbOk exCb ∧
    [0x83, 0x84].map (fun a => lastWriteC Ex.ctx exCb a (.init allOk :: exOps) (powerUp (mem 0x60)) (Core.readRegister Ex.ctx 0 a (powerUp (mem 0x60))).1) = [0x60, 3] ∧
    [0x83, 0x84].map (fun a => lastWriteC Ex.ctx exCb a (.init allOk :: (exOps ++ [.process (some (Ex.msg 30 5 1 []))])) (powerUp (mem 0x60))
      (Core.readRegister Ex.ctx 0 a (powerUp (mem 0x60))).1) = [0xA0, 0] := by
  refine ⟨rfl, exCb_ok, by decide +kernel, by decide +kernel⟩

end Vscp.LastWrite
