/-
Drivers of the examples: C58 (timer driver), C59 (software timers).
-/
import Verif.Spec.Driver
import Verif.Model.Node

namespace Vscp.DrvProps
open Vscp.Driver Vscp.Spec.Drv

/-! ### C58 -/

section Timer
open Timer
variable {n : Nat}

theorem initLoop_get (i : Nat) (s : Timer.State n) (j : Nat) (hj : j < n) :
    (initLoop i s)[j] = if i ≤ j then { s[j] with id := INVALID } else s[j] := by
  fun_induction initLoop i s with
  | case1 i s h ih =>
    rw [ih]
    by_cases e : i = j
    · subst e; rw [if_neg (by omega), if_pos (Nat.le_refl _), Vector.getElem_set_self]
    · rw [Vector.getElem_set_ne _ _ e]
      by_cases h1 : i ≤ j
      · rw [if_pos h1, if_pos (by omega)]
      · rw [if_neg h1, if_neg (by omega)]
  | case2 i s h => rw [if_neg (by omega)]

theorem init_get (s : Timer.State n) (j : Nat) (hj : j < n) : (Timer.init s)[j] = ⟨INVALID, 0⟩ := by
  rw [Timer.init, initLoop_get, if_pos (Nat.zero_le _), Vector.getElem_replicate]

theorem processLoop_get (p : U16) (i : Nat) (s : Timer.State n) (j : Nat) (hj : j < n) :
    (Timer.processLoop p i s)[j] = if i ≤ j then tick p s[j] else s[j] := by
  fun_induction Timer.processLoop p i s with
  | case1 i s h ih =>
    rw [ih]
    by_cases e : i = j
    · subst e; rw [if_neg (by omega), if_pos (Nat.le_refl _), Vector.getElem_set_self]
    · rw [Vector.getElem_set_ne _ _ e]
      by_cases h1 : i ≤ j
      · rw [if_pos h1, if_pos (by omega)]
      · rw [if_neg h1, if_neg (by omega)]
  | case2 i s h => rw [if_neg (by omega)]

theorem process_get (p : U16) (s : Timer.State n) (j : Nat) (hj : j < n) : (Timer.process p s)[j] = tick p s[j] := by
  rw [Timer.process, processLoop_get, if_pos (Nat.zero_le _)]

theorem start_get (id : U8) (v : U16) (s : Timer.State n) (j : Nat) (hj : j < n) :
    (Timer.start id v s)[j] = if id.toNat = j then { s[j] with value := v } else s[j] := by
  unfold Timer.start
  by_cases h : id.toNat < n
  · rw [dif_pos h, Vector.getElem_set]
    by_cases e : id.toNat = j
    · rw [if_pos e, if_pos e]; simp only [e]
    · rw [if_neg e, if_neg e]
  · rw [dif_neg h, if_neg (by omega)]

theorem stop_get (id : U8) (s : Timer.State n) (j : Nat) (hj : j < n) :
    (Timer.stop id s)[j] = if id.toNat = j then { s[j] with value := 0 } else s[j] := by
  unfold Timer.stop
  by_cases h : id.toNat < n
  · rw [dif_pos h, Vector.getElem_set]
    by_cases e : id.toNat = j
    · rw [if_pos e, if_pos e]; simp only [e]
    · rw [if_neg e, if_neg e]
  · rw [dif_neg h, if_neg (by omega)]

/-- The first `k` timers are in use. -/
def Used (k : Nat) (s : Timer.State n) : Prop := ∀ j (hj : j < n), s[j].id = if j < k then BitVec.ofNat 8 j else INVALID

theorem Used.step {k : Nat} {s : Timer.State n} (h : Used k s) (op : Timer.Op) (ho : op ≠ .create) : Used k (Timer.step s op) := by
  intro j hj
  cases op with
  | create => exact absurd rfl ho
  | start id v =>
    show (Timer.start id v s)[j].id = _
    rw [start_get _ _ _ _ hj]; split <;> exact h j hj
  | stop id =>
    show (Timer.stop id s)[j].id = _
    rw [stop_get _ _ _ hj]; split <;> exact h j hj
  | process p =>
    show (Timer.process p s)[j].id = _
    rw [process_get _ _ _ hj]; unfold tick; split <;> exact h j hj

theorem ofNat_ne_invalid (hn : n < 256) {j : Nat} (hj : j < n) : (BitVec.ofNat 8 j : U8) ≠ INVALID := by
  intro e
  have := congrArg BitVec.toNat e
  rw [BitVec.toNat_ofNat, Nat.mod_eq_of_lt (by omega)] at this
  have h2 : INVALID.toNat = 255 := rfl
  omega

theorem createLoop_run (hn : n < 256) {k : Nat} {s : Timer.State n} (h : Used k s) (i : Nat) (hi : i ≤ k) :
    createLoop i s = if hk : k < n then (BitVec.ofNat 8 k, s.set k { s[k] with id := BitVec.ofNat 8 k }) else (INVALID, s) := by
  fun_induction createLoop i s with
  | case1 i hlt he =>
    have hik : i = k := by
      by_cases e : i < k
      · have := h i hlt
        rw [if_pos e, he] at this
        exact absurd this.symm (ofNat_ne_invalid hn hlt)
      · omega
    subst hik
    rw [dif_pos hlt]
  | case2 i hlt he ih =>
    refine ih ?_
    have : i ≠ k := by
      intro e; subst e
      have := h i hlt
      rw [if_neg (by omega)] at this
      exact he this
    omega
  | case3 i hlt => rw [dif_neg (by omega)]

theorem Used.create (hn : n < 256) {k : Nat} {s : Timer.State n} (h : Used k s) :
    (Timer.create s).1 = (if k < n then BitVec.ofNat 8 k else INVALID) ∧ Used (k + 1) (Timer.create s).2 ∧
    ∀ j (hj : j < n), (Timer.create s).2[j].value = s[j].value := by
  unfold Timer.create
  rw [createLoop_run hn h 0 (Nat.zero_le _)]
  by_cases hk : k < n
  · rw [dif_pos hk, if_pos hk]
    refine ⟨rfl, ?_, ?_⟩
    · intro j hj
      simp only
      rw [Vector.getElem_set]
      by_cases e : k = j
      · subst e; rw [if_pos rfl, if_pos (by omega)]
      · rw [if_neg e, h j hj]
        by_cases h1 : j < k
        · rw [if_pos h1, if_pos (by omega)]
        · rw [if_neg h1, if_neg (by omega)]
    · intro j hj
      simp only
      rw [Vector.getElem_set]
      by_cases e : k = j
      · subst e; rw [if_pos rfl]
      · rw [if_neg e]
  · rw [dif_neg hk, if_neg hk]
    refine ⟨rfl, ?_, fun _ _ => rfl⟩
    intro j hj
    rw [h j hj, if_pos (by omega), if_pos (by omega)]

theorem Used.init (s : Timer.State n) : Used 0 (Timer.init s) := by
  intro j hj
  rw [init_get _ _ hj, if_neg (by omega)]

theorem creations_cons (op : Timer.Op) (ops : List Timer.Op) :
    creations (op :: ops) = (if op = .create then 1 else 0) + creations ops := by
  unfold creations
  by_cases e : op = .create
  · rw [if_pos e, List.filter_cons_of_pos (by simp [e]), List.length_cons]; omega
  · rw [if_neg e, List.filter_cons_of_neg (by simpa using e)]; omega

theorem Used.run (hn : n < 256) (ops : List Timer.Op) : ∀ {k : Nat} {s : Timer.State n}, Used k s →
    Used (k + creations ops) (ops.foldl Timer.step s) ∧
    idsFrom s ops = (List.range' k (creations ops)).map (fun j => if j < n then BitVec.ofNat 8 j else INVALID) := by
  induction ops with
  | nil => intro k s h; exact ⟨h, rfl⟩
  | cons op ops ih =>
    intro k s h
    rw [creations_cons, List.foldl_cons]
    by_cases e : op = .create
    · subst e
      obtain ⟨h1, h2, -⟩ := h.create hn
      obtain ⟨h3, h4⟩ := ih h2
      rw [if_pos rfl, Nat.add_comm 1, ← Nat.add_assoc, Nat.add_right_comm]
      refine ⟨h3, ?_⟩
      rw [List.range'_succ, List.map_cons, ← h1, ← h4]
      rfl
    · obtain ⟨h3, h4⟩ := ih (h.step op e)
      rw [if_neg e, Nat.zero_add]
      refine ⟨h3, ?_⟩
      rw [← h4]
      cases op with
      | create => exact absurd rfl e
      | _ => rfl

/-- C58: the ids are given out one after the other, each once, and the invalid id if no timer is left; whatever happens in between. -/
theorem C58_ids (hn : n < 256) (s : Timer.State n) (ops : List Timer.Op) :
    ids s ops = (List.range (creations ops)).map (fun j => if j < n then BitVec.ofNat 8 j else 0xFF) := by
  rw [List.range_eq_range']
  exact (Used.run hn ops (Used.init s)).2

/-- C58: ids which are given out are different (the invalid id is given out if no timer is left). -/
theorem C58_distinct (hn : n < 256) (s : Timer.State n) (ops : List Timer.Op) (i j : Nat) (id : U8)
    (hi : (ids s ops)[i]? = some id) (hj : (ids s ops)[j]? = some id) (hv : id ≠ 0xFF) : i = j := by
  rw [C58_ids hn] at hi hj
  simp only [List.getElem?_map, Option.map_eq_some_iff, List.getElem?_eq_some_iff, List.getElem_range, List.length_range] at hi hj
  obtain ⟨a, ⟨h1, rfl⟩, h2⟩ := hi
  obtain ⟨b, ⟨h3, rfl⟩, h4⟩ := hj
  split at h2
  · split at h4
    · have := congrArg BitVec.toNat (h2.trans h4.symm)
      rw [BitVec.toNat_ofNat, BitVec.toNat_ofNat, Nat.mod_eq_of_lt (by omega), Nat.mod_eq_of_lt (by omega)] at this
      exact this
    · exact absurd h4.symm hv
  · exact absurd h2.symm hv

/-- An id which was given out belongs to a timer in use. -/
theorem given (hn : n < 256) (s : Timer.State n) (ops : List Timer.Op) (id : U8) (h : id ∈ ids s ops) (hv : id ≠ 0xFF) :
    ∃ hlt : id.toNat < n, (Timer.run s ops)[id.toNat].id ≠ INVALID := by
  rw [C58_ids hn] at h
  obtain ⟨j, hj, e⟩ := List.mem_map.mp h
  rw [List.mem_range] at hj
  split at e
  · rename_i hlt
    have ej : id.toNat = j := by rw [← e, BitVec.toNat_ofNat, Nat.mod_eq_of_lt (by omega)]
    refine ⟨by omega, ?_⟩
    have := (Used.run hn ops (Used.init s)).1 id.toNat (by omega)
    rw [if_pos (by omega)] at this
    rw [Timer.run, this]
    exact ofNat_ne_invalid hn (by omega)
  · exact absurd e.symm hv

/-- A slot in use stays in use, whatever is done. -/
theorem step_used (s : Timer.State n) (op : Timer.Op) (j : Nat) (hj : j < n) (h : s[j].id ≠ INVALID) :
    (Timer.step s op)[j].id ≠ INVALID ∧
    (op = .create → (Timer.step s op)[j].value = s[j].value) := by
  cases op with
  | create =>
    have hc : ∀ i, (createLoop i s).2[j] = s[j] := by
      intro i
      fun_induction createLoop i s with
      | case1 i hlt he =>
        rw [Vector.getElem_set_ne]
        intro e; subst e; exact h he
      | case2 i hlt he ih => exact ih
      | case3 i hlt => rfl
    have : (Timer.step s .create)[j] = s[j] := hc 0
    rw [this]
    exact ⟨h, fun _ => rfl⟩
  | start id v =>
    refine ⟨?_, fun e => by cases e⟩
    show (Timer.start id v s)[j].id ≠ _
    rw [start_get _ _ _ _ hj]; split <;> exact h
  | stop id =>
    refine ⟨?_, fun e => by cases e⟩
    show (Timer.stop id s)[j].id ≠ _
    rw [stop_get _ _ _ hj]; split <;> exact h
  | process p =>
    refine ⟨?_, fun e => by cases e⟩
    show (Timer.process p s)[j].id ≠ _
    rw [process_get _ _ _ hj]; unfold tick; split <;> exact h

theorem tick_value (p : U16) (t : Slot) (h : t.id ≠ INVALID) : (tick p t).value.toNat = t.value.toNat - p.toNat := by
  unfold tick
  rw [if_pos h]
  simp only
  split
  · rename_i hle
    rw [BitVec.toNat_sub_of_le hle]
  · rename_i hle
    have : ¬ p.toNat ≤ t.value.toNat := hle
    show 0 = _
    omega

/-- The remaining time behind calls which do not concern the timer. -/
theorem value_run (ops : List Timer.Op) (id : U8) (hlt : id.toNat < n) : ∀ (s : Timer.State n), s[id.toNat].id ≠ INVALID →
    (∀ op ∈ ops, concerns id op = false) →
    (ops.foldl Timer.step s)[id.toNat].value.toNat = s[id.toNat].value.toNat - elapsed ops := by
  induction ops with
  | nil => intro s _ _; rfl
  | cons op ops ih =>
    intro s hs h
    obtain ⟨hu, hc⟩ := step_used s op id.toNat hlt hs
    rw [List.foldl_cons, ih _ hu (fun op h' => h op (by simp [h']))]
    have ho := h op (by simp)
    cases op with
    | create => rw [hc rfl]; rfl
    | start i v =>
      have e : (Timer.step s (.start i v))[id.toNat] = s[id.toNat] := by
        show (Timer.start i v s)[id.toNat] = _
        rw [start_get _ _ _ _ hlt, if_neg]
        intro e
        rw [BitVec.eq_of_toNat_eq e] at ho
        simp [concerns] at ho
      rw [e]; rfl
    | stop i =>
      have e : (Timer.step s (.stop i))[id.toNat] = s[id.toNat] := by
        show (Timer.stop i s)[id.toNat] = _
        rw [stop_get _ _ _ hlt, if_neg]
        intro e
        rw [BitVec.eq_of_toNat_eq e] at ho
        simp [concerns] at ho
      rw [e]; rfl
    | process p =>
      show (Timer.process p s)[id.toNat].value.toNat - _ = _
      rw [process_get _ _ _ hlt, tick_value _ _ hs, elapsed]
      omega

/-- C58: a timer which was created and then started with `v` is running until `v` milliseconds have passed and not longer; whatever happens to other timers. -/
theorem C58_expiry (hn : n < 256) (s : Timer.State n) (ops ops' : List Timer.Op) (id : U8) (v : U16)
    (h : id ∈ ids s ops) (hv : id ≠ 0xFF) (h' : ∀ op ∈ ops', concerns id op = false) :
    getStatus id (Timer.run s (ops ++ .start id v :: ops')) = decide (elapsed ops' < v.toNat) := by
  obtain ⟨hlt, hu⟩ := given hn s ops id h hv
  unfold getStatus
  rw [dif_pos hlt]
  have e : Timer.run s (ops ++ .start id v :: ops') = ops'.foldl Timer.step (Timer.start id v (Timer.run s ops)) := by
    rw [Timer.run, List.foldl_append]; rfl
  rw [e]
  have hs := start_get id v (Timer.run s ops) id.toNat hlt
  rw [if_pos rfl] at hs
  have hval := value_run ops' id hlt (Timer.start id v (Timer.run s ops)) (by rw [hs]; exact hu) h'
  rw [hval, hs]
  simp only [decide_eq_decide]
  omega

/-- C58: a stopped timer is not running until it is started again. -/
theorem C58_stop (s : Timer.State n) (ops ops' : List Timer.Op) (id : U8)
    (h' : ∀ op ∈ ops', ∀ v, op ≠ .start id v) : getStatus id (Timer.run s (ops ++ .stop id :: ops')) = false := by
  unfold getStatus
  by_cases hlt : id.toNat < n
  rotate_left
  · rw [dif_neg hlt]
  rw [dif_pos hlt]
  have e : Timer.run s (ops ++ .stop id :: ops') = ops'.foldl Timer.step (Timer.stop id (Timer.run s ops)) := by
    rw [Timer.run, List.foldl_append]; rfl
  rw [e]
  have hs : (Timer.stop id (Timer.run s ops))[id.toNat].value = 0 := by
    rw [stop_get _ _ _ hlt, if_pos rfl]
  generalize Timer.stop id (Timer.run s ops) = w at hs
  have key : ∀ (ops : List Timer.Op) (w : Timer.State n), w[id.toNat].value = 0 → (∀ op ∈ ops, ∀ v, op ≠ .start id v) →
      (ops.foldl Timer.step w)[id.toNat].value = 0 := by
    intro ops
    induction ops with
    | nil => intro w h _; exact h
    | cons op ops ih =>
      intro w hw h
      refine ih _ ?_ (fun op h' => h op (by simp [h']))
      have ho := h op (by simp)
      cases op with
      | create =>
        show (createLoop 0 w).2[id.toNat].value = 0
        have hc : ∀ i, (createLoop i w).2[id.toNat].value = w[id.toNat].value := by
          intro i
          clear ho h
          fun_induction createLoop i w with
          | case1 i hl he =>
            rw [Vector.getElem_set]
            split
            · rename_i e; simp only [e]
            · rfl
          | case2 i hl he ih => exact ih
          | case3 i hl => rfl
        rw [hc, hw]
      | start i v =>
        show (Timer.start i v w)[id.toNat].value = 0
        rw [start_get _ _ _ _ hlt, if_neg, hw]
        intro e
        exact ho v (by rw [BitVec.eq_of_toNat_eq e])
      | stop i =>
        show (Timer.stop i w)[id.toNat].value = 0
        rw [stop_get _ _ _ hlt]; split
        · rfl
        · exact hw
      | process p =>
        show (Timer.process p w)[id.toNat].value = 0
        rw [process_get _ _ _ hlt]
        unfold tick
        split
        · simp only [hw]
          split
          · rename_i hle
            have : p = 0 := by
              have h2 : p.toNat ≤ 0 := hle
              exact BitVec.eq_of_toNat_eq (by simpa using h2)
            rw [this]; rfl
          · rfl
        · exact hw
  rw [key ops' w hs h']
  rfl

/-- C58: the calls for other timers have no influence on a timer. -/
theorem C58_independent (s : Timer.State n) (ops : List Timer.Op) (id : U8) :
    getStatus id (Timer.run s ops) = getStatus id (Timer.run s (ops.filter (fun op => !foreign id op))) := by
  unfold getStatus
  by_cases hlt : id.toNat < n
  rotate_left
  · rw [dif_neg hlt, dif_neg hlt]
  rw [dif_pos hlt, dif_pos hlt]
  have key : ∀ (ops : List Timer.Op) (a b : Timer.State n), (∀ j (hj : j < n), a[j].id = b[j].id) → a[id.toNat] = b[id.toNat] →
      (ops.foldl Timer.step a)[id.toNat] = ((ops.filter (fun op => !foreign id op)).foldl Timer.step b)[id.toNat] := by
    intro ops
    induction ops with
    | nil => intro a b _ h; exact h
    | cons op ops ih =>
      intro a b hab h
      by_cases hf : foreign id op = true
      · rw [List.filter_cons_of_neg (by simp [hf]), List.foldl_cons]
        apply ih
        · intro j hj
          cases op with
          | create => simp [foreign] at hf
          | process p => simp [foreign] at hf
          | start i v =>
            show (Timer.start i v a)[j].id = _
            rw [start_get _ _ _ _ hj]; split <;> exact hab j hj
          | stop i =>
            show (Timer.stop i a)[j].id = _
            rw [stop_get _ _ _ hj]; split <;> exact hab j hj
        · cases op with
          | create => simp [foreign] at hf
          | process p => simp [foreign] at hf
          | start i v =>
            show (Timer.start i v a)[id.toNat] = _
            rw [start_get _ _ _ _ hlt, if_neg, h]
            intro e
            rw [BitVec.eq_of_toNat_eq e] at hf; simp [foreign] at hf
          | stop i =>
            show (Timer.stop i a)[id.toNat] = _
            rw [stop_get _ _ _ hlt, if_neg, h]
            intro e
            rw [BitVec.eq_of_toNat_eq e] at hf; simp [foreign] at hf
      · rw [List.filter_cons_of_pos (by simp [hf]), List.foldl_cons, List.foldl_cons]
        cases op with
        | create =>
          have hc : ∀ i, (∀ j (hj : j < n), (createLoop i a).2[j].id = (createLoop i b).2[j].id) ∧
              (createLoop i a).2[id.toNat] = (createLoop i b).2[id.toNat] := by
            intro i
            clear hf ih
            fun_induction createLoop i a with
            | case1 i hl he =>
              rw [createLoop, dif_pos hl, if_pos (by rw [← hab i hl]; exact he)]
              refine ⟨fun j hj => ?_, ?_⟩
              · simp only [Vector.getElem_set]
                split
                · rfl
                · exact hab j hj
              · simp only [Vector.getElem_set]
                split
                · rename_i e; subst e; rw [h]
                · exact h
            | case2 i hl he ih =>
              rw [createLoop.eq_def i b, dif_pos hl, if_neg (by rw [← hab i hl]; exact he)]
              exact ih
            | case3 i hl =>
              rw [createLoop, dif_neg hl]
              exact ⟨hab, h⟩
          exact ih _ _ (hc 0).1 (hc 0).2
        | start i v =>
          apply ih
          · intro j hj
            show (Timer.start i v a)[j].id = (Timer.start i v b)[j].id
            rw [start_get _ _ _ _ hj, start_get _ _ _ _ hj]
            split <;> exact hab j hj
          · show (Timer.start i v a)[id.toNat] = (Timer.start i v b)[id.toNat]
            rw [start_get _ _ _ _ hlt, start_get _ _ _ _ hlt, h]
        | stop i =>
          apply ih
          · intro j hj
            show (Timer.stop i a)[j].id = (Timer.stop i b)[j].id
            rw [stop_get _ _ _ hj, stop_get _ _ _ hj]
            split <;> exact hab j hj
          · show (Timer.stop i a)[id.toNat] = (Timer.stop i b)[id.toNat]
            rw [stop_get _ _ _ hlt, stop_get _ _ _ hlt, h]
        | process p =>
          apply ih
          · intro j hj
            show (Timer.process p a)[j].id = (Timer.process p b)[j].id
            rw [process_get _ _ _ hj, process_get _ _ _ hj]
            unfold tick
            rw [hab j hj]
            split <;> simp [hab j hj]
          · show (Timer.process p a)[id.toNat] = (Timer.process p b)[id.toNat]
            rw [process_get _ _ _ hlt, process_get _ _ _ hlt, h]
  have := key ops (Timer.init s) (Timer.init s) (fun _ _ => rfl) rfl
  unfold Timer.run
  rw [this]

/-- The timers of the core in the order in which they are created (src/vscp_core.c:322-365). -/
def order : Tmr → Nat
  | .main => 0
  | .guidDrop => 1
  | .reg162 => 2
  | .epoch => 3
  | .heartbeat => 4

/-- The driver state represents the timers of the core model. -/
def Sim (tm : Timers) (s : Timer.State n) : Prop :=
  ∀ t, (tm.ok t = true → ∃ h : order t < n, s[order t].id ≠ INVALID ∧ s[order t].value = tm.rem t)

/-- The id which the core uses for a timer. -/
def idOf (tm : Timers) (t : Tmr) : U8 := if tm.ok t then BitVec.ofNat 8 (order t) else INVALID

theorem order_inj {a b : Tmr} (h : order a = order b) : a = b := by
  cases a <;> cases b <;> first | rfl | (simp [order] at h)

theorem order_toNat (t : Tmr) : (BitVec.ofNat 8 (order t) : U8).toNat = order t := by cases t <;> rfl

/-- C58: the driver does what the model of the core takes for granted: after the creation of the timers, if there are enough of them, all are valid and stopped. -/
theorem C58_refines_init (hn : n < 256) (k : Nat) (hk : k ≤ n) (s : Timer.State n) :
    ids s (List.replicate k .create) = (List.range k).map (fun j => BitVec.ofNat 8 j) ∧
    Sim { rem := fun _ => 0, ok := fun t => decide (order t < k) } (Timer.run s (List.replicate k .create)) := by
  have hc : creations (List.replicate k .create) = k := by
    unfold creations
    rw [List.filter_replicate_of_pos (by rfl), List.length_replicate]
  refine ⟨?_, ?_⟩
  · rw [C58_ids hn, hc]
    refine List.map_congr_left fun j hj => ?_
    rw [List.mem_range] at hj
    rw [if_pos (by omega)]
  · intro t ht
    have ht : order t < k := of_decide_eq_true ht
    refine ⟨by omega, ?_, ?_⟩
    · have := (Used.run hn (List.replicate k .create) (Used.init s)).1 (order t) (by omega)
      rw [hc, if_pos (by omega)] at this
      rw [Timer.run, this]
      exact ofNat_ne_invalid hn (by omega)
    · have key : ∀ (k : Nat) (m : Nat) (w : Timer.State n), Used m w → ∀ j (hj : j < n),
          ((List.replicate k Timer.Op.create).foldl Timer.step w)[j].value = w[j].value := by
        intro k
        induction k with
        | zero => intro m w _ j _; rfl
        | succ k ih =>
          intro m w h j hj
          obtain ⟨-, h2, h3⟩ := h.create hn
          rw [List.replicate_succ, List.foldl_cons, show Timer.step w .create = (Timer.create w).2 from rfl, ih (m + 1) _ h2 j hj]
          exact h3 j hj
      rw [Timer.run, key k 0 _ (Used.init s) _ (by omega), init_get _ _ (by omega)]

/-- C58: starting, stopping, querying and advancing the timers of the core model corresponds to the calls of the driver. -/
theorem C58_refines (hn : n < 256) (w : W) (s : Timer.State n) (h : Sim w.tm s) (t : Tmr) (v p : U16) :
    Sim (timerStart t v w).2.tm (Timer.start (idOf w.tm t) v s) ∧ Sim (timerStop t w).2.tm (Timer.stop (idOf w.tm t) s) ∧
    (timerRunning t w).1 = Timer.getStatus (idOf w.tm t) s ∧ Sim (tickTimers p.toNat w).2.tm (Timer.process p s) := by
  have hid : ∀ t, w.tm.ok t = true → (idOf w.tm t).toNat = order t := by
    intro t ht; rw [idOf, if_pos ht, order_toNat]
  have hbad : ∀ t, ¬ w.tm.ok t = true → n ≤ (idOf w.tm t).toNat := by
    intro t ht
    rw [idOf, if_neg ht]
    have : INVALID.toNat = 255 := rfl
    omega
  have set : ∀ (x : U16) (f : U8 → Timer.State n), (∀ id j (hj : j < n), (f id)[j] = if id.toNat = j then { s[j] with value := x } else s[j]) →
      Sim (if w.tm.ok t then { w with tm := { w.tm with rem := fun y => if y = t then x else w.tm.rem y } } else w).tm (f (idOf w.tm t)) := by
    intro x f hf t' ht'
    have hok : w.tm.ok t' = true := by
      split at ht' <;> exact ht'
    obtain ⟨h1, h2, h3⟩ := h t' hok
    refine ⟨h1, ?_⟩
    rw [hf _ _ h1]
    by_cases ht : w.tm.ok t = true
    · rw [if_pos ht, hid t ht]
      by_cases e : t' = t
      · subst e
        rw [if_pos rfl]
        exact ⟨h2, by simp⟩
      · rw [if_neg (fun e' => e (order_inj e'.symm))]
        refine ⟨h2, ?_⟩
        simp only [if_neg e]
        exact h3
    · have := hbad t ht
      rw [if_neg ht, if_neg (by omega)]
      exact ⟨h2, h3⟩
  refine ⟨?_, ?_, ?_, ?_⟩
  · rw [timerStart_run]
    exact set v (fun id => Timer.start id v s) (fun id j hj => start_get id v s j hj)
  · rw [timerStop_run]
    exact set 0 (fun id => Timer.stop id s) (fun id j hj => stop_get id s j hj)
  · rw [timerRunning_run]
    unfold getStatus
    by_cases ht : w.tm.ok t = true
    · obtain ⟨h1, h2, h3⟩ := h t ht
      rw [dif_pos (by rw [hid t ht]; exact h1)]
      simp only [hid t ht, h3, ht, Bool.true_and]
      by_cases e : w.tm.rem t = 0
      · rw [e]; rfl
      · have : 0 < (w.tm.rem t).toNat := by
          apply Nat.pos_of_ne_zero
          intro e'
          exact e (BitVec.eq_of_toNat_eq (by simpa using e'))
        rw [decide_eq_true this]
        simpa using e
    · rw [dif_neg (by have := hbad t ht; omega)]
      simp [ht]
  · intro t' ht'
    obtain ⟨h1, h2, h3⟩ := h t' ht'
    refine ⟨h1, ?_, ?_⟩
    · rw [process_get _ _ _ h1]
      unfold tick
      rw [if_pos h2]
      exact h2
    · rw [process_get _ _ _ h1]
      apply BitVec.eq_of_toNat_eq
      rw [tick_value _ _ h2, h3]
      show _ = (BitVec.ofNat 16 ((w.tm.rem t').toNat - p.toNat)).toNat
      rw [BitVec.toNat_ofNat, Nat.mod_eq_of_lt]
      have := (w.tm.rem t').isLt
      omega

end Timer

/-! ### C59 -/

section SwTimer
open SwTimer
variable {n : Nat}

theorem swProcessLoop_get (i : Nat) (s : SwTimer.State n) (j : Nat) (hj : j < n) :
    (SwTimer.processLoop i s)[j] = if i ≤ j then SwTimer.tick s[j] else s[j] := by
  fun_induction SwTimer.processLoop i s with
  | case1 i s h ih =>
    rw [ih]
    by_cases e : i = j
    · subst e; rw [if_neg (by omega), if_pos (Nat.le_refl _), Vector.getElem_set_self]
    · rw [Vector.getElem_set_ne _ _ e]
      by_cases h1 : i ≤ j
      · rw [if_pos h1, if_pos (by omega)]
      · rw [if_neg h1, if_neg (by omega)]
  | case2 i s h => rw [if_neg (by omega)]

theorem swProcess_get (s : SwTimer.State n) (j : Nat) (hj : j < n) : (SwTimer.process s)[j] = SwTimer.tick s[j] := by
  rw [SwTimer.process, swProcessLoop_get, if_pos (Nat.zero_le _)]

theorem swTick_value (t : SwTimer.Ctx) : (SwTimer.tick t).value.toNat = t.value.toNat - 1 := by
  unfold SwTimer.tick
  split
  · rename_i h
    show (t.value - 1).toNat = _
    rw [BitVec.toNat_sub_of_le (by show (1 : U8).toNat ≤ _; exact h)]
    rfl
  · omega

theorem swTick_other (t : SwTimer.Ctx) : (SwTimer.tick t).isManual = t.isManual ∧ (SwTimer.tick t).startValue = t.startValue := by
  unfold SwTimer.tick
  split <;> exact ⟨rfl, rfl⟩

/-- A call which does not concern the timer: a tick counts down, everything else leaves it as it is. -/
theorem swStep_get (id : U8) (s : SwTimer.State n) (op : SwTimer.Op) (hlt : id.toNat < n) (h : swConcerns id op = false)
    (hg : op ≠ .getStatus id) : (SwTimer.step s op)[id.toNat] = if op = .process then SwTimer.tick s[id.toNat] else s[id.toNat] := by
  have hne : ∀ i : U8, i ≠ id → i.toNat ≠ id.toNat := fun i h e => h (BitVec.eq_of_toNat_eq e)
  cases op with
  | start i v m =>
    have : i ≠ id := by simpa [swConcerns] using h
    rw [if_neg (by simp)]
    show (SwTimer.start i v m s)[id.toNat] = _
    unfold SwTimer.start
    split
    · rw [Vector.getElem_set_ne _ _ (hne i this)]
    · rfl
  | stop i =>
    have : i ≠ id := by simpa [swConcerns] using h
    rw [if_neg (by simp)]
    show (SwTimer.stop i s)[id.toNat] = _
    unfold SwTimer.stop
    split
    · rw [Vector.getElem_set_ne _ _ (hne i this)]
    · rfl
  | getStatus i =>
    have : i ≠ id := fun e => hg (by rw [e])
    rw [if_neg (by simp)]
    show (SwTimer.getStatus i s).2[id.toNat] = _
    unfold SwTimer.getStatus
    split
    · split
      · simp only
        split
        · rw [Vector.getElem_set_ne _ _ (hne i this)]
        · rfl
      · rfl
    · rfl
  | process =>
    rw [if_pos rfl]
    exact swProcess_get s id.toNat hlt

/-- C59: a query of a timer which is restarted manually tells the timeout if and only if the number of ticks since the start has reached the start value; whatever happens to
other timers and however often it is queried. -/
theorem C59_manual (s : SwTimer.State n) (id v : U8) (ops : List SwTimer.Op) (hlt : id.toNat < n) (h : ∀ op ∈ ops, swConcerns id op = false) :
    (SwTimer.getStatus id (SwTimer.run (SwTimer.start id v true s) ops)).1 = decide (v.toNat ≤ ticks ops) := by
  have key : ∀ (ops : List SwTimer.Op) (w : SwTimer.State n), (∀ op ∈ ops, swConcerns id op = false) → w[id.toNat].isManual = true →
      (SwTimer.run w ops)[id.toNat].value.toNat = w[id.toNat].value.toNat - ticks ops := by
    intro ops
    induction ops with
    | nil => intro w _ _; rfl
    | cons op ops ih =>
      intro w h hm
      have hs : (SwTimer.step w op)[id.toNat] = if op = .process then SwTimer.tick w[id.toNat] else w[id.toNat] := by
        by_cases hg : op = .getStatus id
        · subst hg
          rw [if_neg (by simp)]
          show (SwTimer.getStatus id w).2[id.toNat] = _
          unfold SwTimer.getStatus
          rw [dif_pos hlt]
          split
          · simp only [hm, Bool.true_eq_false, if_false]
          · rfl
        · exact swStep_get id w op hlt (h op (by simp)) hg
      show (SwTimer.run (SwTimer.step w op) ops)[id.toNat].value.toNat = _
      rw [ih _ (fun op h' => h op (by simp [h'])) (by rw [hs]; split; exact (swTick_other _).1.trans hm; exact hm), hs]
      unfold ticks
      by_cases e : op = .process
      · rw [if_pos e, swTick_value, List.filter_cons_of_pos (by simp [e]), List.length_cons]; omega
      · rw [if_neg e, List.filter_cons_of_neg (by simpa using e)]
  have hs : (SwTimer.start id v true s)[id.toNat] = ⟨v, true, v⟩ := by
    unfold SwTimer.start
    rw [dif_pos hlt, Vector.getElem_set_self]
  have hk := key ops (SwTimer.start id v true s) h (by rw [hs])
  rw [hs] at hk
  unfold SwTimer.getStatus
  rw [dif_pos hlt]
  split
  · rename_i e
    rw [e] at hk
    have : (0 : U8).toNat = 0 := rfl
    have : (⟨v, true, v⟩ : SwTimer.Ctx).value.toNat = v.toNat := rfl
    exact (decide_eq_true (by omega)).symm
  · rename_i e
    have h0 : (SwTimer.run (SwTimer.start id v true s) ops)[id.toNat].value.toNat ≠ 0 := fun e' => e (BitVec.eq_of_toNat_eq (by simpa using e'))
    have : (⟨v, true, v⟩ : SwTimer.Ctx).value.toNat = v.toNat := rfl
    exact (decide_eq_false (by omega)).symm

/-- C59: a timer which is restarted automatically tells the timeout at a query if and only if the number of ticks since the start or since the last reported timeout has reached
the start value; so it repeats. -/
theorem C59_auto (s : SwTimer.State n) (id v : U8) (ops : List SwTimer.Op) (hlt : id.toNat < n) (h : ∀ op ∈ ops, swConcerns id op = false) :
    SwTimer.results id (SwTimer.start id v false s) ops = polls id v.toNat 0 ops := by
  have key : ∀ (ops : List SwTimer.Op) (w : SwTimer.State n) (k : Nat), (∀ op ∈ ops, swConcerns id op = false) →
      w[id.toNat].isManual = false → w[id.toNat].startValue = v → w[id.toNat].value.toNat = v.toNat - k →
      SwTimer.results id w ops = polls id v.toNat k ops := by
    intro ops
    induction ops with
    | nil => intro w k _ _ _ _; rfl
    | cons op ops ih =>
      intro w k h hm hsv hv
      have h' : ∀ op ∈ ops, swConcerns id op = false := fun op h'' => h op (by simp [h''])
      by_cases hg : op = .getStatus id
      · subst hg
        rw [SwTimer.results, if_pos rfl, polls, if_pos rfl]
        by_cases e : v.toNat ≤ k
        · have hz : w[id.toNat].value = 0 := BitVec.eq_of_toNat_eq (by show _ = 0; omega)
          have hq : SwTimer.getStatus id w = (true, w.set id.toNat { w[id.toNat] with value := w[id.toNat].startValue }) := by
            unfold SwTimer.getStatus
            rw [dif_pos hlt, if_pos hz, if_pos hm]
          rw [if_pos e, decide_eq_true e, show SwTimer.step w (.getStatus id) = (SwTimer.getStatus id w).2 from rfl, hq]
          refine congrArg (true :: ·) (ih _ 0 h' ?_ ?_ ?_)
          · rw [Vector.getElem_set_self]; exact hm
          · rw [Vector.getElem_set_self]; exact hsv
          · rw [Vector.getElem_set_self]; simp only [hsv]; omega
        · have hz : w[id.toNat].value ≠ 0 := by
            intro e'; rw [e'] at hv
            have : (0 : U8).toNat = 0 := rfl
            omega
          have hq : SwTimer.getStatus id w = (false, w) := by
            unfold SwTimer.getStatus
            rw [dif_pos hlt, if_neg hz]
          rw [if_neg e, decide_eq_false e, show SwTimer.step w (.getStatus id) = (SwTimer.getStatus id w).2 from rfl, hq]
          exact congrArg (false :: ·) (ih _ k h' hm hsv hv)
      · have hs := swStep_get id w op hlt (h op (by simp)) hg
        rw [SwTimer.results, if_neg hg, List.nil_append]
        by_cases e : op = .process
        · subst e
          rw [if_pos rfl] at hs
          rw [polls]
          refine ih _ _ h' ?_ ?_ ?_
          · rw [hs]; exact (swTick_other _).1.trans hm
          · rw [hs]; exact (swTick_other _).2.trans hsv
          · rw [hs, swTick_value]; omega
        · rw [if_neg e] at hs
          have hp : polls id v.toNat k (op :: ops) = polls id v.toNat k ops := by
            cases op with
            | process => exact absurd rfl e
            | getStatus i => rw [polls, if_neg (fun e' => hg (by rw [e']))]
            | _ => rfl
          rw [hp]
          exact ih _ _ h' (by rw [hs]; exact hm) (by rw [hs]; exact hsv) (by rw [hs]; exact hv)
  have hs : (SwTimer.start id v false s)[id.toNat] = ⟨v, false, v⟩ := by
    unfold SwTimer.start
    rw [dif_pos hlt, Vector.getElem_set_self]
  exact key ops _ 0 h (by rw [hs]) (by rw [hs]) (by rw [hs]; rfl)

/-- C59: a query which is interrupted by ticks has the same effect as an uninterrupted query in front of or behind them. -/
theorem C59_interrupt (s : SwTimer.State n) (id : U8) (k : Nat) :
    SwTimer.getStatusIsr id k s = SwTimer.getStatus id (Nat.repeat SwTimer.process k s) ∨
    SwTimer.getStatusIsr id k s = ((SwTimer.getStatus id s).1, Nat.repeat SwTimer.process k (SwTimer.getStatus id s).2) := by
  by_cases hlt : id.toNat < n
  · by_cases hz : s[id.toNat].value = 0
    · left
      have hk : (Nat.repeat SwTimer.process k s)[id.toNat].value = 0 := by
        induction k with
        | zero => exact hz
        | succ k ih =>
          rw [Nat.repeat, swProcess_get _ _ hlt]
          unfold SwTimer.tick
          rw [if_neg (by rw [ih]; simp)]
          exact ih
      unfold SwTimer.getStatusIsr SwTimer.getStatusRest SwTimer.getStatus
      simp only [dif_pos hlt, if_pos hz, if_pos hk]
    · right
      unfold SwTimer.getStatusIsr SwTimer.getStatusRest SwTimer.getStatus
      simp only [dif_pos hlt, if_neg hz]
  · left
    unfold SwTimer.getStatusIsr SwTimer.getStatusRest SwTimer.getStatus
    simp only [dif_neg hlt]

end SwTimer

/-! ### Concrete cases -/

/-- Memory in front of the initialisation. -/
def ram : Timer.State 5 := Vector.replicate 5 ⟨3, 77⟩

-- Two timers; timer 1 is started with 500 ms, timer 0 is started and stopped meanwhile.
example : let ops := [Timer.Op.create, .start 0 9, .create, .process 250]
    let ops' := [Timer.Op.process 250, .stop 0, .create, .start 0 70, .process 249]
    (1 : U8) ∈ Timer.ids ram ops ∧ (∀ op ∈ ops', concerns 1 op = false) ∧ elapsed ops' = 499 ∧
    Timer.getStatus 1 (Timer.run ram (ops ++ .start 1 500 :: ops')) = true ∧
    Timer.getStatus 1 (Timer.run ram (ops ++ .start 1 500 :: (ops' ++ [.process 1]))) = false := by
  decide +kernel

-- Six creations with five timers.
example : Timer.ids ram (List.replicate 6 .create) = [0, 1, 2, 3, 4, 0xFF] := by decide +kernel

-- A timer which was never created but is started nevertheless, is running for ever.
example : Timer.getStatus 3 (Timer.run ram [.start 3 1, .process 1000, .process 1000]) = true := by decide +kernel

-- The timers of the core.
example (s : Timer.State 5) : Sim { rem := fun _ => 0, ok := fun _ => true } (Timer.run s (List.replicate 5 .create)) := by
  have h := (C58_refines_init (n := 5) (by omega) 5 (by omega) s).2
  have e : (fun t => decide (order t < 5)) = fun _ => true := by funext t; cases t <;> rfl
  rw [e] at h
  exact h

/-- Two software timers. -/
def sw : SwTimer.State 2 := SwTimer.init 2

-- A repeating timer with period 2 which is polled, while the other one is used; the query comes late the second time.
example : let ops := [SwTimer.Op.process, .getStatus 0, .start 1 9 true, .process, .getStatus 0, .getStatus 0, .process, .process, .process, .getStatus 0, .getStatus 1, .process, .getStatus 0]
    (∀ op ∈ ops, swConcerns 0 op = false) ∧ SwTimer.results 0 (SwTimer.start 0 2 false sw) ops = [false, true, false, true, false] := by
  decide +kernel

-- A manual timer.
example : let ops := [SwTimer.Op.process, .getStatus 0, .stop 1, .process]
    (∀ op ∈ ops, swConcerns 0 op = false) ∧ (SwTimer.getStatus 0 (SwTimer.run (SwTimer.start 0 2 true sw) ops)).1 = true ∧
    (SwTimer.getStatus 0 (SwTimer.run (SwTimer.start 0 3 true sw) ops)).1 = false := by
  decide +kernel

-- Stopping a timer which is restarted automatically: the next query tells the timeout and starts it again.
example : let w := SwTimer.stop 0 (SwTimer.start 0 5 false sw)
    (SwTimer.getStatus 0 w).1 = true ∧ (SwTimer.getStatus 0 (SwTimer.getStatus 0 w).2).1 = false := by
  decide +kernel

end Vscp.DrvProps
