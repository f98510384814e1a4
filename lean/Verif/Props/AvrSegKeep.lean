/-
Property theorems: why an AVR example on a CAN bus gives up its nickname (C135).
-/
import Verif.Spec.AvrSegKeep
import Verif.Props.AvrKeep
import Verif.Props.AvrFinds

namespace Vscp.CanSegment
open M Vscp.Driver Vscp.Spec.CanSegment Vscp.Spec.CanDrv Vscp.CanDrvProps Vscp.Safety
open Vscp.Spec hiding Move
open Vscp.Spec.CanNode hiding Ok Paced
open Vscp.Driver.CanNode hiding Move run move run_append
open Vscp.Driver.CanDrv (BusFrame)

variable {ι : Type} [DecidableEq ι] {p : Parts ι} {ty : U8}

/-! ### Events which no node sends -/

/-- The framework sends no events of class 0 and this type. -/
def Alien (ty : U8) : Prop := ty ∉ answers.map Prod.snd ∧ ty ≠ 2 ∧ ty ≠ 7 ∧ ty ≠ 39

instance (ty : U8) : Decidable (Alien ty) := by unfold Alien; infer_instance

/-- An event which is none of class 0 and this type, and is not taken for one by others. -/
def Spare (ty : U8) (m : Msg) : Prop := m.cls.toNat < 512 ∧ ¬(m.cls = 0 ∧ m.typ = ty)

omit [DecidableEq ι] in
/-- Neither an application nor something else than a node sends an event of class 0 and this type. -/
def Discreet (ty : U8) : Move ι → Prop
  | .own _ (.rx b) => ¬Tells ty b
  | .own _ (.call (.sendEvent m)) => Spare ty m
  | _ => True

theorem spare_wire {m : Msg} (h : Spare ty m) : ¬Tells ty (wireOf m) := by
  unfold Tells
  rw [wireOf_class]
  intro e
  have := m.typ.isLt
  have h1 := h.1
  exact h.2 ⟨BitVec.eq_of_toNat_eq (by show m.cls.toNat = 0; omega), BitVec.eq_of_toNat_eq (by show m.typ.toNat = ty.toNat; omega)⟩

theorem carries_spare {b : BusFrame} {m : Msg} (hb : ¬Tells ty b) (h : Carries b m) : ¬(m.cls = 0 ∧ m.typ = ty) := by
  rintro ⟨h1, h2⟩
  refine hb ?_
  unfold Tells
  rw [← h.1]
  unfold Drv.canId
  rw [h1, h2]
  have := m.oAddr.isLt
  have e0 : (0 : U16).toNat = 0 := rfl
  have e6 := ty.isLt
  cases m.hard <;> simp only [Bool.toNat_true, Bool.toNat_false] <;> omega

theorem of_kind {m : Msg} {k : U16} (h : m.cls = k) (hk : k.toNat < 512) (h0 : k = 0 → m.typ ≠ ty) : Spare ty m :=
  ⟨h ▸ hk, fun h' => h0 (h.symm.trans h'.1) h'.2⟩

theorem answers_kind (hk : Alien ty) {a b : U8} (h : (a, b) ∈ answers) : b ≠ ty := by
  exact fun e => hk.1 (e ▸ List.mem_map_of_mem (f := Prod.snd) h)

theorem reason_spare (hk : Alien ty) {c : Ctx} {rx : Option Msg} {w : W} {f : Msg} (h : Reason c rx w f) : Spare ty f := by
  cases h with
  | answer m _ _ _ hf ht => exact of_kind (ty := ty) hf (by decide) fun _ => answers_kind hk ht
  | stream _ _ hf ht => exact of_kind (ty := ty) hf (by decide) fun _ => by rw [ht]; exact fun h => hk.2.2.2 h.symm
  | heartbeat _ _ _ _ _ hf => exact of_kind (ty := ty) hf.1 (by decide) fun h => absurd h (by decide)
  | probeMaster _ _ hf => exact of_kind (ty := ty) (k := 0) (by rw [hf]; rfl) (by decide) fun _ => by rw [hf]; show (2 : U8) ≠ ty; exact fun h => hk.2.1 h.symm
  | probe _ _ hf => exact of_kind (ty := ty) (k := 0) (by rw [hf]; rfl) (by decide) fun _ => by rw [hf]; show (2 : U8) ≠ ty; exact fun h => hk.2.1 h.symm
  | online _ _ hf => exact of_kind (ty := ty) (k := 0) (by rw [hf]; rfl) (by decide) fun _ => by rw [hf]; show (2 : U8) ≠ ty; exact fun h => hk.2.1 h.symm
  | accepted _ _ _ _ _ _ hf => exact of_kind (ty := ty) (k := 0) (by rw [hf]; rfl) (by decide) fun _ => by rw [hf]; show (7 : U8) ≠ ty; exact fun h => hk.2.2.1 h.symm

theorem reasonC_spare (hk : Alien ty) {c : Ctx} {cb : Callbacks} (hA : ∀ m, Vscp.Sends cb m → Spare ty m) {rx : Option Msg} {w : W} {e : List Out} {f : Msg} (h : ReasonC c cb rx w e f) : Spare ty f := by
  cases h with
  | app x _ h => exact hA f ⟨x, h⟩
  | log _ _ _ hf => exact of_kind (ty := ty) hf.1 (by decide) fun h => absurd h (by decide)
  | answer m _ _ _ hf ht => exact of_kind (ty := ty) hf (by decide) fun _ => answers_kind hk ht
  | stream _ _ hf ht => exact of_kind (ty := ty) hf (by decide) fun _ => by rw [ht]; exact fun h => hk.2.2.2 h.symm
  | heartbeat _ _ _ _ _ hf => exact of_kind (ty := ty) hf.1 (by decide) fun h => absurd h (by decide)
  | other _ r => exact reason_spare hk r

/-- No frame on the way carries an event of this type. -/
structure Untold (ty : U8) (s : Segment ι) : Prop where
  inbox : ∀ i, ∀ b ∈ s.inbox i, ¬Tells ty b
  unheard : ∀ i, ∀ b ∈ unheard (s.node i), ¬Tells ty b
  waiting : ∀ i, ∀ b ∈ waiting (s.node i).x.1, ¬Tells ty b

theorem untold_act (hk : Alien ty) (hp : Proper p) (hA : ∀ i k m, Vscp.Sends (p.cb i k) m → Spare ty m) {s s' : Segment ι} (hs : Sound p s) (h : Untold ty s) {i : ι} {mv : Driver.CanNode.Move}
    (hm : Spec.CanNode.Ok mv) (hmo : Discreet ty (.own i mv)) {rest : List BusFrame} (hr : ∀ b ∈ rest, ¬Tells ty b) (e : act p s i mv rest = .ok s') :
    Untold ty s' ∧ (mv = .cycle → ∀ m ∈ (s'.node i).heard.drop (s.node i).heard.length, ¬(m.cls = 0 ∧ m.typ = ty)) := by
  obtain ⟨n, hn, e1, e2, e3, e4⟩ := act_eq e
  obtain ⟨-, ⟨q, t, hf⟩, heff⟩ := moved (hp.cfg i _) (hp.cb i _) _ (hs.fine i) hm hn
  have hq : n.x.2.wire.drop (s.node i).x.2.wire.length = q := by rw [hf.wire, List.drop_left]
  have hto : ∀ m ∈ taken t, Spare ty m := by
    intro m hmt
    have hmt := mem_of_taken hmt
    have same : n.w.out = (s.node i).w.out → False := by
      intro h
      rw [hf.out] at h
      have : t = [] := by simpa using h
      rw [this] at hmt
      cases hmt
    cases mv with
    | cycle =>
      obtain ⟨m', h1, -⟩ := heff
      exact reasonC_spare hk (hA i _) (Speech.C118_callbacks (hp.cb i _) (op := .process m') (by rw [← h1]; exact hf.out) hmt)
    | call op =>
      have := Speech.C118_calls (c := p.ctx i (s.life i)) (op := op) (w := (s.node i).w) (by rw [← heff.1]; exact hf.out) hmt
      cases op with
      | process rx => exact absurd rfl (heff.2.1 rx)
      | sendEvent m' => rw [show m = m' from this]; exact hmo
      | log _ _ _ => exact of_kind (ty := ty) this.1 (by decide) fun h => absurd h (by decide)
      | logUInt32 _ _ _ => exact of_kind (ty := ty) this.1 (by decide) fun h => absurd h (by decide)
      | _ => exact this.elim
    | rx b => exact (same (by rw [heff.1])).elim
    | tx => exact (same (by rw [heff.1])).elim
  have gone : ∀ b ∈ q ++ waiting n.x.1, ¬Tells ty b := by
    intro b hb
    rcases List.mem_append.1 (hf.perm.mem_iff.1 hb) with hb | hb
    · exact h.waiting i b hb
    · obtain ⟨m, hm, rfl⟩ := List.mem_map.1 hb
      exact spare_wire (hto m hm)
  refine ⟨⟨fun j b hb => ?_, fun j b hb => ?_, fun j b hb => ?_⟩, fun hc m hmm => ?_⟩
  · by_cases hj : j = i
    · subst hj; rw [e3] at hb; exact hr b hb
    · rw [(e4 j hj).2, hq] at hb
      rcases List.mem_append.1 hb with hb | hb
      · exact h.inbox j b hb
      · exact gone b (List.mem_append_left _ hb)
  · by_cases hj : j = i
    · subst hj
      rw [e2] at hb
      cases mv with
      | cycle => obtain ⟨m, -, -, h3, -⟩ := heff; rw [h3] at hb; cases hb
      | call op => rw [heff.2.2.2] at hb; exact h.unheard j b hb
      | rx b' =>
        rcases unheard_rx hn b hb with hb | rfl
        · exact h.unheard j b hb
        · exact hmo
      | tx => rw [heff.2.2] at hb; exact h.unheard j b hb
    · rw [(e4 j hj).1] at hb; exact h.unheard j b hb
  · by_cases hj : j = i
    · subst hj; rw [e2] at hb; exact gone b (List.mem_append_right _ hb)
    · rw [(e4 j hj).1] at hb; exact h.waiting j b hb
  · subst hc
    obtain ⟨m0, -, h2, -, h3⟩ := heff
    rw [e2, h2, List.drop_left] at hmm
    rcases h3 with ⟨rfl, -⟩ | ⟨m', b, rfl, h4, h5⟩
    · cases hmm
    · cases List.mem_singleton.1 hmm
      exact carries_spare (h.unheard i b (by rw [h4]; exact List.mem_singleton_self _)) h5

theorem untold_step (hk : Alien ty) (hp : Proper p) (hA : ∀ i k m, Vscp.Sends (p.cb i k) m → Spare ty m) {s s' : Segment ι} (hs : Sound p s) (h : Untold ty s) {mv : Move ι} (hm : CanSegment.Ok mv)
    (hmo : Discreet ty mv) (e : step p s mv = .ok s') :
    Untold ty s' ∧ ∀ i, mv = .own i .cycle → ∀ m ∈ (s'.node i).heard.drop (s.node i).heard.length, ¬(m.cls = 0 ∧ m.typ = ty) := by
  cases mv with
  | own i cmv =>
    obtain ⟨h1, h2⟩ := untold_act hk hp hA hs h hm hmo (h.inbox i) e
    exact ⟨h1, fun j hj => by cases hj; exact h2 rfl⟩
  | deliver i =>
    refine ⟨?_, fun j hj => by cases hj⟩
    simp only [step] at e
    cases hb : s.inbox i with
    | nil => rw [hb] at e; cases e; exact h
    | cons b l =>
      rw [hb] at e
      exact (untold_act hk hp hA hs h (mv := .rx b) (hs.inbox i b (by rw [hb]; exact List.mem_cons_self ..)) (h.inbox i b (by rw [hb]; exact List.mem_cons_self ..))
        (fun b' hb' => h.inbox i b' (by rw [hb]; exact List.mem_cons_of_mem _ hb')) e).1
  | power i ok ps ctl =>
    refine ⟨?_, fun j hj => by cases hj⟩
    cases e
    refine ⟨fun j b hb => ?_, fun j b hb => ?_, fun j b hb => ?_⟩
    · dsimp only at hb
      by_cases hj : j = i
      · rw [if_pos hj] at hb; cases hb
      · rw [if_neg hj] at hb; exact h.inbox j b hb
    · dsimp only at hb
      by_cases hj : j = i
      · rw [if_pos hj, boot_unheard] at hb; cases hb
      · rw [if_neg hj] at hb; exact h.unheard j b hb
    · dsimp only at hb
      by_cases hj : j = i
      · rw [if_pos hj, boot_waiting] at hb; cases hb
      · rw [if_neg hj] at hb; exact h.waiting j b hb

theorem untold_start (ok : ι → Tmr → Bool) (ps : ι → Nat → U8) (ctl : ι → Driver.CanDrv.State) : Untold ty (start p ok ps ctl) where
  inbox := fun i b hb => by cases hb
  unheard := fun i b hb => absurd hb (by show b ∉ CanSegment.unheard (boot _ _ _ _ _); rw [boot_unheard]; exact List.not_mem_nil)
  waiting := fun i b hb => absurd hb (by show b ∉ waiting (boot _ _ _ _ _).x.1; rw [boot_waiting]; exact List.not_mem_nil)

/-! ### Answers to probes, where something else answers, too -/

omit [DecidableEq ι] in
/-- Each answer of nickname `q` on the way, or heard, comes from something else than the nodes, if `F` says so, or from another node of which `H` says that it had the nickname. -/
structure Founded (F : U8 → Prop) (H : ι → U8 → Prop) (s : Segment ι) : Prop where
  waiting : ∀ i, ∀ b ∈ waiting (s.node i).x.1, ∀ q, Answers b q → H i q
  inbox : ∀ i, ∀ b ∈ s.inbox i, ∀ q, Answers b q → F q ∨ ∃ a, a ≠ i ∧ H a q
  unheard : ∀ i, ∀ b ∈ unheard (s.node i), ∀ q, Answers b q → F q ∨ ∃ a, a ≠ i ∧ H a q
  heard : ∀ i, ∀ m ∈ (s.node i).heard, ∀ q, ackFrom m q → F q ∨ ∃ a, a ≠ i ∧ H a q

theorem founded_act (hp : Proper p) (hA : ∀ i k, Reports (p.cb i k)) {F : U8 → Prop} {H : ι → U8 → Prop} {s s' : Segment ι} (hs : Sound p s) (h : Founded F H s) (hH : ∀ a q, uses (s.node a).w q → H a q)
    {i : ι} {mv : Driver.CanNode.Move} (hm : Spec.CanNode.Ok mv) (hmo : (∃ b, mv = .rx b ∧ ∀ q, Answers b q → F q ∨ ∃ a, a ≠ i ∧ H a q) ∨ (∀ b, mv ≠ .rx b) ∧ Reserved (.own i mv))
    {rest : List BusFrame} (hr : ∀ b ∈ rest, ∀ q, Answers b q → F q ∨ ∃ a, a ≠ i ∧ H a q) (e : act p s i mv rest = .ok s') : Founded F H s' := by
  obtain ⟨n, hn, e1, e2, e3, e4⟩ := act_eq e
  obtain ⟨-, ⟨q, t, hf⟩, heff⟩ := moved (hp.cfg i _) (hp.cb i _) _ (hs.fine i) hm hn
  have hq : n.x.2.wire.drop (s.node i).x.2.wire.length = q := by rw [hf.wire, List.drop_left]
  have hto : ∀ m ∈ taken t, ∀ q, Answers (wireOf m) q → H i q := by
    intro m hmt q' hans
    have hmt := mem_of_taken hmt
    have same : n.w.out = (s.node i).w.out → False := by
      intro h
      rw [hf.out] at h
      have : t = [] := by simpa using h
      rw [this] at hmt
      cases hmt
    have no : ∀ {k : U16}, m.cls = k → k.toNat < 512 → k ≠ 0 → H i q' := fun h1 h2 h0 => by
      have := (wire_answers (by rw [h1]; exact h2) hans).1
      exact absurd (h1.symm.trans this) h0
    cases mv with
    | cycle =>
      obtain ⟨m', h1, -⟩ := heff
      have h3 : m.typ = 3 := by
        have := hans.1
        rw [wireOf_class] at this
        have h8 := m.typ.isLt
        exact BitVec.eq_of_toNat_eq (by show m.typ.toNat = 3; omega)
      obtain ⟨k1, k2⟩ := cycle_ack (hp.cb i _) (hp.proto i _) (hA i _) (rx := m') (by rw [← h1]; exact hf.out) hmt h3
      obtain ⟨w1, -, w3⟩ := wire_answers k1 hans
      rw [← w3]
      exact hH i _ (k2 w1)
    | call op =>
      have := Speech.C118_calls (c := p.ctx i (s.life i)) (op := op) (w := (s.node i).w) (by rw [← heff.1]; exact hf.out) hmt
      cases op with
      | process rx => exact absurd rfl (heff.2.1 rx)
      | sendEvent m' =>
        rcases hmo with ⟨b, hb, -⟩ | ⟨-, hmo⟩
        · cases hb
        · have e : m = m' := this
          subst e
          have w := wire_answers hmo.1 hans
          exact absurd ⟨w.1, w.2.1⟩ hmo.2
      | log _ _ _ => exact no this.1 (by decide) (by decide)
      | logUInt32 _ _ _ => exact no this.1 (by decide) (by decide)
      | _ => exact this.elim
    | rx b => exact (same (by rw [heff.1])).elim
    | tx => exact (same (by rw [heff.1])).elim
  have gone : ∀ b ∈ q ++ waiting n.x.1, ∀ q, Answers b q → H i q := by
    intro b hb
    rcases List.mem_append.1 (hf.perm.mem_iff.1 hb) with hb | hb
    · exact h.waiting i b hb
    · obtain ⟨m, hm, rfl⟩ := List.mem_map.1 hb
      exact hto m hm
  refine ⟨fun j b hb => ?_, fun j b hb => ?_, fun j b hb => ?_, fun j m hmm => ?_⟩
  · by_cases hj : j = i
    · subst hj; rw [e2] at hb; exact gone b (List.mem_append_right _ hb)
    · rw [(e4 j hj).1] at hb; exact h.waiting j b hb
  · by_cases hj : j = i
    · subst hj; rw [e3] at hb; exact hr b hb
    · rw [(e4 j hj).2, hq] at hb
      rcases List.mem_append.1 hb with hb | hb
      · exact h.inbox j b hb
      · exact fun q' ha => .inr ⟨i, Ne.symm hj, gone b (List.mem_append_left _ hb) q' ha⟩
  · by_cases hj : j = i
    · subst hj
      rw [e2] at hb
      cases mv with
      | cycle => obtain ⟨m, -, -, h3, -⟩ := heff; rw [h3] at hb; cases hb
      | call op => rw [heff.2.2.2] at hb; exact h.unheard j b hb
      | rx b' =>
        rcases unheard_rx hn b hb with hb | rfl
        · exact h.unheard j b hb
        · rcases hmo with ⟨b', hb, hmo⟩ | ⟨hmo, -⟩
          · cases hb; exact hmo
          · exact absurd rfl (hmo b)
      | tx => rw [heff.2.2] at hb; exact h.unheard j b hb
    · rw [(e4 j hj).1] at hb; exact h.unheard j b hb
  · by_cases hj : j = i
    · subst hj
      rw [e2] at hmm
      cases mv with
      | cycle =>
        obtain ⟨m0, -, h2, -, h3⟩ := heff
        rw [h2] at hmm
        rcases List.mem_append.1 hmm with hmm | hmm
        · exact h.heard j m hmm
        · rcases h3 with ⟨rfl, -⟩ | ⟨m', b, rfl, h4, h5⟩
          · cases hmm
          · cases List.mem_singleton.1 hmm
            exact fun q ha => h.unheard j b (by rw [h4]; exact List.mem_singleton_self _) q (carries_answers h5 ha)
      | call op => rw [heff.2.2.1] at hmm; exact h.heard j m hmm
      | rx b' => rw [heff.2.1] at hmm; exact h.heard j m hmm
      | tx => rw [heff.2.1] at hmm; exact h.heard j m hmm
    · rw [(e4 j hj).1] at hmm; exact h.heard j m hmm

theorem founded_step (hp : Proper p) (hA : ∀ i k, Reports (p.cb i k)) {F : U8 → Prop} {H : ι → U8 → Prop} {s s' : Segment ι} (hs : Sound p s) (h : Founded F H s) (hH : ∀ a q, uses (s.node a).w q → H a q)
    {mv : Move ι} (hm : CanSegment.Ok mv) (hmo : ∀ i b, mv = .own i (.rx b) → ∀ q, Answers b q → F q) (hno : ∀ i m, mv ≠ .own i (.call (.sendEvent m))) (e : step p s mv = .ok s') : Founded F H s' := by
  cases mv with
  | own i cmv =>
    refine founded_act hp hA hs h hH hm ?_ (h.inbox i) e
    cases cmv with
    | rx b => exact .inl ⟨b, rfl, fun q hq => .inl (hmo i b rfl q hq)⟩
    | call op =>
      refine .inr ⟨fun b hb => (by cases hb), ?_⟩
      cases op with
      | sendEvent m => exact absurd rfl (hno i m)
      | _ => trivial
    | _ => exact .inr ⟨fun b hb => (by cases hb), trivial⟩
  | deliver i =>
    simp only [step] at e
    cases hb : s.inbox i with
    | nil => rw [hb] at e; cases e; exact h
    | cons b l =>
      rw [hb] at e
      exact founded_act hp hA hs h hH (mv := .rx b) (hs.inbox i b (by rw [hb]; exact List.mem_cons_self ..)) (.inl ⟨b, rfl, h.inbox i b (by rw [hb]; exact List.mem_cons_self ..)⟩)
        (fun b' hb' => h.inbox i b' (by rw [hb]; exact List.mem_cons_of_mem _ hb')) e
  | power i ok ps ctl =>
    cases e
    refine ⟨fun j b hb => ?_, fun j b hb => ?_, fun j b hb => ?_, fun j m hb => ?_⟩
    · dsimp only at hb
      by_cases hj : j = i
      · rw [if_pos hj, boot_waiting] at hb; cases hb
      · rw [if_neg hj] at hb; exact h.waiting j b hb
    · dsimp only at hb
      by_cases hj : j = i
      · rw [if_pos hj] at hb; cases hb
      · rw [if_neg hj] at hb; exact h.inbox j b hb
    · dsimp only at hb
      by_cases hj : j = i
      · rw [if_pos hj, boot_unheard] at hb; cases hb
      · rw [if_neg hj] at hb; exact h.unheard j b hb
    · dsimp only at hb
      by_cases hj : j = i
      · rw [if_pos hj] at hb; cases hb
      · rw [if_neg hj] at hb; exact h.heard j m hb

omit [DecidableEq ι] in
theorem founded_start (F : U8 → Prop) (H : ι → U8 → Prop) (ok : ι → Tmr → Bool) (ps : ι → Nat → U8) (ctl : ι → Driver.CanDrv.State) : Founded F H (start p ok ps ctl) where
  inbox := fun i b hb => by cases hb
  unheard := fun i b hb => absurd hb (by show b ∉ CanSegment.unheard (boot _ _ _ _ _); rw [boot_unheard]; exact List.not_mem_nil)
  waiting := fun i b hb => absurd hb (by show b ∉ waiting (boot _ _ _ _ _).x.1; rw [boot_waiting]; exact List.not_mem_nil)
  heard := fun i m hm => by cases hm

/-- The events which the AVR example sends in its callbacks. -/
theorem app_spare (s : Avr.Surr) (n : Nat) : ∀ m, Vscp.Sends (s.cb n) m → Spare ty m := by
  rintro m ⟨w, hm⟩
  unfold Avr.Surr.cb Avr.cb at hm
  split at hm
  · split at hm
    · cases List.mem_singleton.1 hm; exact of_kind (k := 20) rfl (by decide) fun h => absurd h (by decide)
    · split at hm
      · cases List.mem_singleton.1 hm; exact of_kind (k := 20) rfl (by decide) fun h => absurd h (by decide)
      · cases hm
  · cases hm

/-- Where no frame on the way carries an event of this type, no node hears one. -/
theorem heard_untold (hk : Alien ty) (hp : Proper p) (hA : ∀ i k m, Vscp.Sends (p.cb i k) m → Spare ty m) {s s' : Segment ι} (hs : Sound p s) (h : Untold ty s) {mv : Move ι} (hm : CanSegment.Ok mv)
    (hmo : Discreet ty mv) (e : step p s mv = .ok s') {d : ι} (hl : s'.life d = s.life d) {m : Msg} (hh : (s'.node d).heard = (s.node d).heard ++ [m]) : ¬(m.cls = 0 ∧ m.typ = ty) := by
  have no : (s'.node d).heard = (s.node d).heard → False := fun e => by
    rw [e] at hh
    have := congrArg List.length hh
    simp at this
  cases mv with
  | own i cmv =>
    obtain ⟨-, t, ha⟩ := acted hp hs (mv := cmv) hm e
    by_cases hd : d = i
    · subst hd
      have he := ha.effect
      cases cmv with
      | cycle =>
        refine (untold_step hk hp hA hs h hm hmo e).2 d rfl m ?_
        rw [hh, List.drop_left]
        exact List.mem_singleton_self _
      | call op => exact (no he.2.2.1).elim
      | rx b => exact (no he.2.1).elim
      | tx => exact (no he.2.1).elim
    · exact (no (by rw [(ha.other d hd).1])).elim
  | deliver i =>
    simp only [step] at e
    cases hb : s.inbox i with
    | nil => rw [hb] at e; cases e; exact (no rfl).elim
    | cons b l =>
      rw [hb] at e
      obtain ⟨-, t, ha⟩ := acted hp hs (mv := .rx b) (hs.inbox i b (by rw [hb]; exact List.mem_cons_self ..)) e
      by_cases hd : d = i
      · subst hd; exact (no ha.effect.2.1).elim
      · exact (no (by rw [(ha.other d hd).1])).elim
  | power i ok ps ctl =>
    cases e
    by_cases hd : d = i
    · subst hd
      simp at hl
    · exact (no (by simp [hd])).elim

end Vscp.CanSegment

namespace Vscp.AvrSegment
open Vscp.Driver Vscp.Avr Vscp.Avr.Sys Vscp.CanSegment Vscp.Spec.AvrSegment
open Vscp.CanDrvProps Vscp.Safety
open Vscp.Spec (looking uses)

section
variable {ι : Type} [DecidableEq ι] {p : Parts ι} {ty : U8}

omit [DecidableEq ι] in
theorem fits_discreet {mv : Move ι} {cmv : Spec.CanSegment.Move ι} (hf : Fits mv cmv) (h : ∀ i b, mv = .own i (.rx b) → ¬Spec.CanSegment.Tells ty b) : Discreet ty cmv := by
  cases cmv with
  | own i c =>
    cases c with
    | rx b => exact h i b (hf.outside i b rfl)
    | call op =>
      cases op with
      | sendEvent m => exact absurd rfl (hf.calls i m)
      | _ => trivial
    | _ => trivial
  | _ => trivial

theorem untold_run (hk : Alien ty) (htx : ∀ i n k, ((p.surr i).env n).txOk k = true) : ∀ (l : List (Move ι)) {s s' : Segment ι} {u : ι → Nat}, Sane p s u →
    (∀ mv ∈ l, Spec.AvrSegment.Ok mv ∧ ∀ i b, mv = .own i (.rx b) → ¬Spec.CanSegment.Tells ty b) → InTurn u l → Untold ty (seg s) → Spec.AvrSegment.run p l s = .ok s' → Untold ty (seg s')
  | [], s, s', u, _, _, _, h, e => by cases e; exact h
  | mv :: l, s, s', u, hs, hl, ht, h, e => by
    obtain ⟨hm, hmo⟩ := hl mv (List.mem_cons_self ..)
    unfold Spec.AvrSegment.run at e
    cases hst : Spec.AvrSegment.step p s mv with
    | ub => rw [hst] at e; cases e
    | impossible => rw [hst] at e; cases e
    | ok s1 =>
      rw [hst] at e
      obtain ⟨h1, h2⟩ := sim_step htx hs hm ht.1 hst
      refine untold_run hk htx l h1 (fun mv h => hl mv (List.mem_cons_of_mem _ h)) ht.2 ?_ e
      rcases h2 with h2 | ⟨cmv, h2, hf⟩
      · rw [h2]; exact h
      · exact (untold_step hk (proper htx) (fun i k => app_spare (p.surr i) k) hs.sound h hf.ok (fits_discreet hf hmo) h2).1

theorem founded_run (htx : ∀ i n k, ((p.surr i).env n).txOk k = true) {F : U8 → Prop} {H : ι → U8 → Prop} : ∀ (l : List (Move ι)) {s s' : Segment ι} {u : ι → Nat}, Sane p s u → Founded F H (seg s) →
    (∀ mv ∈ l, Spec.AvrSegment.Ok mv) → (∀ b, Foreign l b → ∀ q, Spec.CanSegment.Answers b q → F q) → InTurn u l →
    (∀ pre post s1, l = pre ++ post → Spec.AvrSegment.run p pre s = .ok s1 → ∀ a q, uses (s1.node a).fw.w q → H a q) → Spec.AvrSegment.run p l s = .ok s' → Founded F H (seg s')
  | [], s, s', u, _, hb, _, _, _, _, e => by cases e; exact hb
  | mv :: l, s, s', u, hs, hb, hl, hF, ht, hH, e => by
    have hm := hl mv (List.mem_cons_self ..)
    unfold Spec.AvrSegment.run at e
    cases hst : Spec.AvrSegment.step p s mv with
    | ub => rw [hst] at e; cases e
    | impossible => rw [hst] at e; cases e
    | ok s1 =>
      rw [hst] at e
      obtain ⟨h1, h2⟩ := sim_step htx hs hm ht.1 hst
      have hb1 : Founded F H (seg s1) := by
        rcases h2 with h2 | ⟨cmv, h2, hf⟩
        · rw [h2]; exact hb
        · exact founded_step (proper htx) (fun i k => reports _ _) hs.sound hb (hH [] _ s rfl rfl) hf.ok (fun i b hc => hF b ⟨i, (hf.outside i b hc) ▸ List.mem_cons_self ..⟩) hf.calls h2
      exact founded_run htx l h1 hb1 (fun mv h => hl mv (List.mem_cons_of_mem _ h)) (fun b ⟨i, h⟩ => hF b ⟨i, List.mem_cons_of_mem _ h⟩) ht.2
        (fun pre post s2 e2 hr => hH (mv :: pre) post s2 (by rw [e2]; rfl) ((run_one hst).trans hr)) e

theorem button_noRx : ∀ l : List Sys.Move, Spec.AvrSys.button (noRx l) = Spec.AvrSys.button l
  | [] => rfl
  | mv :: l => by cases mv <;> simp [noRx, Spec.AvrSys.button, button_noRx l]

/-- An example which hears an event is not restarted in the same step. -/
theorem step_life {s : Surr} {a : Nat → Driver.CanNode.Around} {y y1 : State} {m : Msg} (hd : Does s a y .step y1) (hh : y1.heard = y.heard ++ [m]) : y1.fw.life = y.fw.life := by
  cases hd with
  | reset m ctl hpc hm' hr =>
    have := congrArg List.length (show ([] : List Msg) = _ from hh)
    simp at this
  | cycle m x => rfl
  | segInit x => rfl
  | quiet => rfl
  | remember => rfl
  | due x sw =>
    have := congrArg List.length (show y.heard = _ from hh)
    simp at this
  | notDue => rfl

theorem taking_alien : ∀ k ∈ taking, Alien k := by decide

/-- C135: AVR examples on a CAN bus, each of them as a whole, whatever happens and whenever.  If an example gives up its nickname in a move, then its power fails in it; or its button was held for the last 101 ms; or it
hears an answer under its nickname, and another example has used this nickname at some time before or something else than the examples has answered a probe under it; or it hears one of the events which take the nickname, and
something else than the examples has sent such an event.  Provided that the adapters take the events, and the main loop of each example runs once between two frames of others. -/
theorem C135_cause (htx : ∀ i n k, ((p.surr i).env n).txOk k = true) (ps : ι → Nat → U8) (ctl : ι → CanDrv.State) (l : List (Move ι)) (mv : Move ι)
    (hl : ∀ mv' ∈ l ++ [mv], Spec.AvrSegment.Ok mv') (ht : InTurn (fun _ => 0) (l ++ [mv])) {s s' : Segment ι} (e : Spec.AvrSegment.run p l (start p ps ctl) = .ok s)
    (e' : Spec.AvrSegment.step p s mv = .ok s') {d : ι} {q : U8} (hu : uses (s.node d).fw.w q) (hn : ¬ uses (s'.node d).fw.w q) : Cause p (start p ps ctl) l s s' d q mv := by
  have hl1 := fun mv h => hl mv (List.mem_append_left _ h)
  have hm := hl mv (List.mem_append_right _ (List.mem_singleton_self _))
  obtain ⟨-, -, u, hs, hu1⟩ := sane_run htx l [mv] (sane_start htx ps ctl) (fitting_start ps ctl) hl1 ht e
  obtain ⟨ld, od⟩ := own_run htx d l (sane_start htx ps ctl) hl1 (turn_front l ht) e
  rcases own_move hs hm e' d with ⟨h, -⟩ | ⟨smv, hok, hr, hlike⟩
  · rw [h] at hn; exact absurd hu hn
  have hp := pushed_run ld [] (boot_inv [] 0 (ps d) (ctl d)) od.ok od.run (pushed_boot ..)
  have hB : Spec.AvrSys.button (mine d l) = Spec.AvrSys.button ld := by rw [← button_noRx ld, od.like, button_noRx]
  obtain ⟨y1, hd, -, hr1⟩ := run_does (l := []) (hs.inv d) (by simp) hok hr
  cases hr1
  have mine_is : noRx [smv] = [smv] → mv = .own d smv := by
    intro h
    rw [h] at hlike
    cases mv with
    | deliver i => cases hlike
    | own i c =>
      by_cases hi : i = d
      · subst hi
        simp only [mine, if_pos] at hlike
        cases c <;> simp only [noRx, List.cons.injEq, and_true] at hlike <;> first | rw [hlike] | cases hlike
      · simp only [mine, if_neg hi, noRx] at hlike; cases hlike
  rcases does_reason hB hd (by simpa using hp) hu with h | rfl | ⟨rfl, hb, hst⟩ | ⟨rfl, m, hh, hdm⟩
  · exact absurd h hn
  · exact .power (mine_is rfl)
  · exact .button (mine_is rfl) hb hst
  · have hmv := mine_is rfl
    have notake : m.cls = 0 → m.typ ∈ taking → ∃ b, Foreign l b ∧ Spec.CanSegment.Tells m.typ b := by
      intro h0 htk
      refine Classical.byContradiction fun hno => ?_
      have hq : ∀ mv' ∈ l, Spec.AvrSegment.Ok mv' ∧ ∀ i b, mv' = .own i (.rx b) → ¬Spec.CanSegment.Tells m.typ b :=
        fun mv' h => ⟨hl1 mv' h, fun i b hi hb => hno ⟨b, ⟨i, hi ▸ h⟩, hb⟩⟩
      have hk := taking_alien _ htk
      have hun := untold_run hk htx l (sane_start htx ps ctl) hq (turn_front l ht) (untold_start (p := parts p) (fun _ => allOk) ps ctl) e
      have hlife : (s'.node d).fw.life = (s.node d).fw.life := by
        exact step_life hd hh
      rcases (sim_step htx hs hm hu1.1 e').2 with h2 | ⟨cmv, h2, hfit⟩
      · have : (s'.node d).heard = (s.node d).heard := congrArg (fun x => ((Spec.CanSegment.Segment.node x) d).heard) h2
        rw [this] at hh
        have := congrArg List.length hh
        simp at this
      · exact heard_untold hk (proper htx) (fun i k => app_spare (p.surr i) k) hs.sound hun hfit.ok (fits_discreet hfit fun i b hi => by rw [hmv] at hi; cases hi) h2 (d := d) hlife hh ⟨h0, rfl⟩
    obtain ⟨h0, hrest⟩ := id hdm
    have key : m.typ ∈ taking → Cause p (start p ps ctl) l s s' d q mv := fun h => by
      obtain ⟨b, hb⟩ := notake h0 h
      exact .foreign m hmv hh ⟨h0, h⟩ b hb hdm
    rcases hrest with ⟨h3, hpay, ho⟩ | ⟨h6, -⟩ | ⟨h8, -⟩ | ⟨h23, -⟩ | ⟨hw, -⟩
    · rw [hu.2] at ho
      have hb := founded_run htx (F := fun q => ∃ b, Foreign l b ∧ Spec.CanSegment.Answers b q) (H := fun a q => ∃ pre post s1, l = pre ++ post ∧ Spec.AvrSegment.run p pre (start p ps ctl) = .ok s1 ∧ uses (s1.node a).fw.w q)
        l (sane_start htx ps ctl) (founded_start (p := parts p) _ _ (fun _ => allOk) ps ctl) hl1 (fun b hb q hq => ⟨b, hb, hq⟩) (turn_front l ht) (fun pre post s1 e1 e2 a q hu => ⟨pre, post, s1, e1, e2, hu⟩) e
      have hb' : Founded (fun q => ∃ b, Foreign l b ∧ Spec.CanSegment.Answers b q) (fun a q => ∃ pre post s1, l = pre ++ post ∧ Spec.AvrSegment.run p pre (start p ps ctl) = .ok s1 ∧ uses (s1.node a).fw.w q) (seg s') := by
        rcases (sim_step htx hs hm hu1.1 e').2 with h2 | ⟨cmv, h2, hf⟩
        · rw [h2]; exact hb
        · exact founded_step (proper htx) (fun i k => reports _ _) hs.sound hb (fun a q hu => ⟨l, [], s, by simp, e, hu⟩) hf.ok (fun i b hc => by have := hf.outside i b hc; rw [hmv] at this; cases this) hf.calls h2
      rcases hb'.heard d m (by show m ∈ (s'.node d).heard; rw [hh]; simp) q ⟨h0, h3, ho⟩ with ⟨b, hb⟩ | ⟨a, ha, hH⟩
      · exact .answer m hmv hh ⟨h0, h3, ho⟩ b hb
      · exact .example m hmv hh ⟨h0, h3, ho⟩ a ha hH
    · exact key (by rw [h6]; decide)
    · exact key (by rw [h8]; decide)
    · exact key (by rw [h23]; decide)
    · refine key ?_
      revert hw
      generalize m.typ = k
      revert k
      decide

/-- C135: an example which no other one has used the nickname of keeps it, whatever the examples send to each other, as long as its power is on and its button is not held for 101 ms, and something else than the examples
neither answers probes under this nickname nor sends events which take nicknames. -/
theorem C135_kept (htx : ∀ i n k, ((p.surr i).env n).txOk k = true) (ps : ι → Nat → U8) (ctl : ι → CanDrv.State) {d : ι} {q : U8} : ∀ (l pre : List (Move ι)) {s0 s : Segment ι},
    (∀ mv ∈ pre ++ l, Spec.AvrSegment.Ok mv) → InTurn (fun _ => 0) (pre ++ l) → Spec.AvrSegment.run p pre (start p ps ctl) = .ok s0 → Spec.AvrSegment.run p l s0 = .ok s →
    Harmless q (pre ++ l) → .own d .power ∉ l → ¬Spec.AvrSys.Held (mine d (pre ++ l)) →
    (∀ a, a ≠ d → ∀ l1 l2 s1, pre ++ l = l1 ++ l2 → Spec.AvrSegment.run p l1 (start p ps ctl) = .ok s1 → ¬uses (s1.node a).fw.w q) → uses (s0.node d).fw.w q → uses (s.node d).fw.w q
  | [], _, s0, s, _, _, _, e, _, _, _, _, hu => by cases e; exact hu
  | mv :: l, pre, s0, s, hl, ht, e0, e, hf, hp, hh, ha, hu => by
    have hsplit : pre ++ mv :: l = (pre ++ [mv]) ++ l := by simp
    unfold Spec.AvrSegment.run at e
    cases hst : Spec.AvrSegment.step p s0 mv with
    | ub => rw [hst] at e; cases e
    | impossible => rw [hst] at e; cases e
    | ok s1 =>
      rw [hst] at e
      have hu1 : uses (s1.node d).fw.w q := by
        refine Classical.byContradiction fun hn => ?_
        have hfor : ∀ b, Foreign pre b → Foreign (pre ++ mv :: l) b := fun b ⟨i, h⟩ => ⟨i, List.mem_append_left _ h⟩
        rw [hsplit] at hl ht
        cases C135_cause htx ps ctl pre mv (fun mv' h => hl mv' (List.mem_append_left _ h)) (turn_front _ ht) e0 hst hu hn with
        | power h => exact hp (h ▸ List.mem_cons_self ..)
        | button h hb hs =>
          obtain ⟨x, hx⟩ := hb
          refine hh ⟨x, Spec.AvrSys.button (mine d (mv :: l)), ?_⟩
          rw [mine_append, button_append, hx]
        | «example» m h hm hk a had hH =>
          obtain ⟨l1, l2, s2, h1, h2, h3⟩ := hH
          exact ha a had l1 (l2 ++ mv :: l) s2 (by rw [h1, List.append_assoc]) h2 h3
        | answer m h hm hk b hb => exact (hf b (hfor b hb.1)).1 hb.2
        | foreign m h hm hk b hb hd => exact (hf b (hfor b hb.1)).2 m.typ hk.2 hb.2
      rw [hsplit] at hl ht hf hh ha
      exact C135_kept htx ps ctl l (pre ++ [mv]) hl ht (run_both pre [mv] e0 (run_one hst)) e hf (fun h => hp (List.mem_cons_of_mem _ h)) hh ha hu1

end

/-! ### Examples -/

/-- Both have the nickname 5; the second one announces itself after a loss of power, and the first one answers. -/
def exTwin : List (Move Bool) := exBoth ++ exSend false ++ exLoop true ++ exSend true

/-- Both are active; somebody tells the second one, which has the nickname 6, to drop it. -/
def exDropped : List (Move Bool) := exNews ++ [.own false (.rx (Spec.CanNode.protocol 3 false 8 1 [6]))]

/-- The hypotheses of `C135_cause` are met: in the next step of its main loop the second example gives up its nickname, because of the first one or because of the frame. -/
example : (∀ mv ∈ exTwin ++ [.own false .step], Spec.AvrSegment.Ok mv) ∧ InTurn (fun _ => 0) (exTwin ++ [.own false .step]) ∧
    (∀ mv ∈ exDropped ++ [.own false .step], Spec.AvrSegment.Ok mv) ∧ InTurn (fun _ => 0) (exDropped ++ [.own false .step]) ∧
    [(exTwin, exStart 5 5, (5 : U8)), (exDropped, exStart 5 6, 6)].all (fun (l, s0, q) => match Spec.AvrSegment.run exParts l s0 with
    | .ok s => match Spec.AvrSegment.step exParts s (.own false .step) with
      | .ok s' => decide ((s.node false).fw.w.v.st = .active ∧ (s.node false).fw.w.v.nick = q ∧ (s'.node false).fw.w.v.nick = 0xFF)
      | _ => false
    | _ => false) = true := by
  have ok : ∀ l : List (Move Bool), l.all exAlone = true → ∀ mv ∈ l, Spec.AvrSegment.Ok mv := fun l h mv hm => (exAlone_ok h mv hm).1
  refine ⟨ok _ (by decide +kernel), exTurn_ok _ _ (by decide +kernel), fun mv h => ?_, exTurn_ok _ _ (by decide +kernel), by decide +kernel⟩
  rcases List.mem_append.1 h with h | h
  · rcases List.mem_append.1 h with h | h
    · exact ok _ (by decide +kernel) mv h
    · cases List.mem_singleton.1 h
      exact ⟨by decide, by decide, rfl⟩
  · cases List.mem_singleton.1 h; trivial

/-- Both examples run for a while. -/
def exWhile : List (Move Bool) := exLoop true ++ exLoop false ++ [.own false (.tick true), .own true (.tick false)] ++ exLoop false ++ exLoop true

/-- The hypotheses of `C135_kept` are met by the second one of two examples with the nicknames 5 and 6. -/
example : (∀ mv ∈ exNews ++ exWhile, Spec.AvrSegment.Ok mv) ∧ InTurn (fun _ => 0) (exNews ++ exWhile) ∧ Harmless 6 (exNews ++ exWhile) ∧ .own false .power ∉ exWhile ∧
    ¬Spec.AvrSys.Held (mine false (exNews ++ exWhile)) ∧
    (∀ a, a ≠ false → ∀ l1 l2 s1, exNews ++ exWhile = l1 ++ l2 → Spec.AvrSegment.run exParts l1 (exStart 5 6) = .ok s1 → ¬uses (s1.node a).fw.w 6) ∧
    exLook (Spec.AvrSegment.run exParts exNews (exStart 5 6)) = some [(true, 5, true), (true, 6, true)] ∧
    (exLook (Spec.AvrSegment.run exParts (exNews ++ exWhile) (exStart 5 6))).isSome = true := by
  refine ⟨fun mv h => (exAlone_ok (by decide +kernel) mv h).1, exTurn_ok _ _ (by decide +kernel), ?_, by simp [exWhile, exLoop], ?_, ?_, by decide +kernel, by decide +kernel⟩
  · rintro b ⟨i, h⟩
    have : (exNews ++ exWhile).all exAlone = true := by decide +kernel
    cases List.all_eq_true.1 this _ h
  · rintro ⟨x, y, h⟩
    have := congrArg List.length h
    rw [show (Spec.AvrSys.button (mine false (exNews ++ exWhile))).length = 1 by decide +kernel] at this
    simp only [List.length_append, List.length_replicate] at this
    omega
  · intro a ha l1 l2 s1 h hr hu
    have hd : ((List.range ((exNews ++ exWhile).length + 1)).all fun k => match Spec.AvrSegment.run exParts ((exNews ++ exWhile).take k) (exStart 5 6) with
      | .ok s => decide ((s.node true).fw.w.v.nick = 5)
      | _ => false) = true := by decide +kernel
    have := List.all_eq_true.1 hd l1.length (List.mem_range.2 (by rw [h, List.length_append]; omega))
    rw [h, List.take_left, hr] at this
    cases a
    · exact ha rfl
    · have := of_decide_eq_true this
      rw [hu.2] at this
      exact absurd this (by decide)

end Vscp.AvrSegment
