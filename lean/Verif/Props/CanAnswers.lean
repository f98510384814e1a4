/-
Property theorems: answers to probes on a CAN bus come from nodes with this nickname (C126).
-/
import Verif.Spec.Answers
import Verif.Props.CanSegment

namespace Vscp.CanSegment
open M Vscp.Driver Vscp.Spec.CanSegment Vscp.Spec.CanDrv Vscp.CanDrvProps Vscp.Safety
open Vscp.Spec hiding Move
open Vscp.Spec.CanNode hiding Ok Paced
open Vscp.Driver.CanNode hiding Move run move run_append
open Vscp.Driver.CanDrv (BusFrame)

/-! ### A cycle -/

/-- The nickname stays, and answers to probes carry it. -/
def Signed (w w' : W) : Prop := w'.v.nick = w.v.nick ∧ ∃ t, w'.out = w.out ++ t ∧ ∀ f r, .tx f r ∈ t → f.cls = 0 → f.typ = 3 → f.oAddr = w.v.nick

theorem Signed.refl (w : W) : Signed w w := ⟨rfl, [], (List.append_nil _).symm, fun _ _ h => (by cases h)⟩

theorem Signed.trans {w w' w'' : W} (h : Signed w w') (h' : Signed w' w'') : Signed w w'' := by
  obtain ⟨e, t, ht, hf⟩ := h
  obtain ⟨e', t', ht', hf'⟩ := h'
  refine ⟨e'.trans e, t ++ t', by rw [ht', ht, List.append_assoc], fun f r h h0 h3 => ?_⟩
  rcases List.mem_append.1 h with h | h
  · exact hf f r h h0 h3
  · exact (hf' f r h h0 h3).trans e

theorem signed_write {c : Ctx} {m : Msg} {w : W} (h : m.cls = 0 → m.typ = 3 → m.oAddr = w.v.nick) : Signed w (Transport.writeMessage c m w).2 := by
  obtain ⟨tp, ub, t, ht, hc⟩ := writeMessage_frame c m w
  rw [ht]
  refine ⟨rfl, t, rfl, fun f r hf h0 h3 => ?_⟩
  rcases hc with rfl | ⟨rfl, -⟩
  · cases List.mem_singleton.1 hf
    exact h h0 h3
  · cases hf

theorem signed_own {c : Ctx} {w w' : W} (h : Steps c True ownActs w w') : Signed w w' := by
  refine h.rel (R := Signed) .refl (fun _ _ _ => .trans) fun a ha w w' hs => ?_
  by_cases hx : a = .tx
  · subst hx
    obtain ⟨m, h1, -, -, rfl⟩ := hs
    refine signed_write fun h0 h3 => ?_
    rcases h1 with h1 | ⟨-, -, h1 | h1⟩
    · exact h1
    · rw [h3] at h1; exact absurd h1 (by decide)
    · rw [h3] at h1; exact absurd h1 (by decide)
  · have hn : w'.v.nick = w.v.nick := hs.same .nick (by
      have : ∀ a ∈ ownActs, (!a.touches .nick) = true := by decide
      simpa using this a ha)
    obtain ⟨t, ht, ho⟩ := hs.outs
    refine ⟨hn, t, ht, fun f r hf _ _ => ?_⟩
    have he := ho _ hf
    exfalso
    simp only [ownActs, List.mem_cons, List.not_mem_nil, or_false] at ha
    rcases ha with rfl | rfl | rfl | rfl | rfl | rfl | rfl | rfl | rfl | rfl <;> simp [Act.emits] at he hx

theorem signed_walk {c : Ctx} {cb : Callbacks} (hr : Reports cb) : Walk c cb Signed where
  refl := .refl
  trans := .trans
  own := signed_own
  call := by
    intro w
    show Signed w (runOps c (cb w) w)
    have hl := hr w
    generalize cb w = l at hl
    induction l generalizing w with
    | nil => exact .refl w
    | cons op l ih =>
      obtain ⟨m, rfl, -, h⟩ := hl op (List.mem_cons_self ..)
      exact .trans (signed_write fun h0 h3 => absurd ⟨h0, h3⟩ h) (ih _ fun op h => hl op (List.mem_cons_of_mem _ h))

/-- Who answers a probe in a cycle is active, and the answer carries its nickname. -/
theorem cycle_ack {c : Ctx} {cb : Callbacks} (hcb : CbOk cb) (hpn : c.protoNotify = false) (hr : Reports cb) {rx : Option Msg} {w : W} {t : List Out} {f : Msg} {r : Bool}
    (ht : (stepOpC c cb (.process rx) w).2.out = w.out ++ t) (hf : .tx f r ∈ t) (h3 : f.typ = 3) : f.cls.toNat < 512 ∧ (f.cls = 0 → uses w f.oAddr) := by
  have no : ∀ {k : U16}, f.cls = k → k.toNat < 512 → k ≠ 0 → f.cls.toNat < 512 ∧ (f.cls = 0 → uses w f.oAddr) := fun h hk h0 => ⟨h ▸ hk, fun h' => absurd (h.symm.trans h') h0⟩
  have zero : f.cls = 0 → f.cls.toNat < 512 := fun h => by rw [h]; decide
  have typ : ∀ {k : U8}, f.typ = k → k ≠ 3 → f.cls.toNat < 512 ∧ (f.cls = 0 → uses w f.oAddr) := fun h hk => absurd (h.symm.trans h3) hk
  have other : Reason c rx w f → w.v.st ≠ .active → f.cls.toNat < 512 ∧ (f.cls = 0 → uses w f.oAddr) := by
    intro hr ha
    cases hr with
    | answer m h => exact absurd h.1 ha
    | stream h => exact absurd h ha
    | heartbeat h => exact absurd h ha
    | probeMaster _ _ hf => exact typ (by rw [hf]; rfl) (by decide : (2 : U8) ≠ 3)
    | probe _ _ hf => exact typ (by rw [hf]; rfl) (by decide : (2 : U8) ≠ 3)
    | online _ _ hf => exact typ (by rw [hf]; rfl) (by decide : (2 : U8) ≠ 3)
    | accepted _ _ _ _ _ _ hf => exact typ (by rw [hf]; rfl) (by decide : (7 : U8) ≠ 3)
  have hR : ReasonC c cb rx w (stepOpC c cb (.process rx) w).2.out f := Speech.C118_callbacks hcb (op := .process rx) ht hf
  cases hR with
  | app x _ h =>
    obtain ⟨m, e, h1, h2⟩ := hr x _ h
    cases e
    exact ⟨h1, fun h0 => absurd ⟨h0, h3⟩ h2⟩
  | log _ _ _ hf => exact no hf.1 (by decide) (by decide)
  | stream _ _ _ ht => exact typ ht (by decide)
  | heartbeat _ _ _ _ _ hf => exact no hf.1 (by decide) (by decide)
  | other ha r => exact other r ha
  | answer m htk hm _ h0 hty =>
    refine ⟨zero h0, fun _ => ⟨htk.1, ?_⟩⟩
    have h2 : m.typ = 2 := by
      rw [h3] at hty
      have : ∀ x ∈ answers, x.2 = 3 → x.1 = 2 := by decide
      exact this _ hty rfl
    have hpre : (preProcess c rx w).2.v.nick = w.v.nick := pre_same c rx w .nick (by decide)
    have hpo := pre_out c rx w
    have key : Signed (preProcess c rx w).2 (Core.processC c cb rx w).2 := by
      rcases active_walk (rx := rx) (signed_walk (c := c) hr) htk.1 with ⟨m', w1, -, ht', e, -, hS⟩ | ⟨h, -⟩ | hS
      · rw [e hpn] at hS
        have : m' = m := Option.some.inj (ht'.2.1.symm.trans htk.2.1)
        subst this
        refine .trans ?_ hS
        rw [handler2 h2, Core.handleNewNodeOnline, bind_run, get_run, whenM_run]
        split
        · rw [txVoid_run c 0 3 [] (by decide)]
          show Signed _ (sent c _ _)
          refine ⟨by rw [sent_v], _, sent_out .., fun f r hf _ _ => ?_⟩
          cases List.mem_singleton.1 hf
          rfl
        · exact .refl _
      · rw [hpn] at h; cases h
      · exact hS
    obtain ⟨-, t', ht', hf'⟩ := key
    have : t' = t := by
      rw [hpo] at ht'
      exact List.append_cancel_left (ht'.symm.trans ht)
    subst this
    exact (hpre.symm.trans (hf' f r hf h0 h3).symm)

/-! ### Frames on the bus -/

/-- The origin in the identifier. -/
theorem wireOf_origin (m : Msg) : (wireOf m).id % 2 ^ 8 = m.oAddr.toNat := by
  show (Can.packId m).toNat % 2 ^ 29 % 2 ^ 8 = _
  rw [Nat.mod_mod_of_dvd _ (by decide)]
  unfold Can.packId
  simp only [BitVec.toNat_or, BitVec.toNat_shiftLeft, BitVec.toNat_setWidth, Nat.or_mod_two_pow]
  simp only [Nat.shiftLeft_eq]
  have ho := m.oAddr.isLt
  have a1 : ∀ k : Nat, k % 2 ^ 32 * 2 ^ 26 % 2 ^ 32 % 2 ^ 8 = 0 := fun k => by omega
  have a2 : ∀ k : Nat, k * 2 ^ 25 % 2 ^ 32 % 2 ^ 8 = 0 := fun k => by omega
  have a3 : ∀ k : Nat, k % 2 ^ 32 * 2 ^ 16 % 2 ^ 32 % 2 ^ 8 = 0 := fun k => by omega
  have a4 : ∀ k : Nat, k % 2 ^ 32 * 2 ^ 8 % 2 ^ 32 % 2 ^ 8 = 0 := fun k => by omega
  rw [a1, a2, a3, a4]
  simp only [Nat.zero_or]
  omega

theorem wire_answers {m : Msg} {q : U8} (hc : m.cls.toNat < 512) (h : Answers (wireOf m) q) : m.cls = 0 ∧ m.typ = 3 ∧ m.oAddr = q := by
  obtain ⟨h1, h2⟩ := h
  rw [wireOf_class] at h1
  rw [wireOf_origin] at h2
  have := m.typ.isLt
  exact ⟨BitVec.eq_of_toNat_eq (by show m.cls.toNat = 0; omega), BitVec.eq_of_toNat_eq (by show m.typ.toNat = 3; omega), BitVec.eq_of_toNat_eq h2⟩

theorem carries_answers {b : BusFrame} {m : Msg} {q : U8} (h : Carries b m) (ha : ackFrom m q) : Answers b q := by
  obtain ⟨h1, h2, h3⟩ := ha
  have e := h.1
  unfold Drv.canId at e
  rw [h1, h2, h3] at e
  have := q.isLt
  have e0 : (0 : U16).toNat = 0 := rfl
  have e6 : (3 : U8).toNat = 3 := rfl
  unfold Answers
  rw [← e]
  cases m.hard <;> simp only [Bool.toNat_true, Bool.toNat_false] <;> constructor <;> omega

variable {ι : Type} [DecidableEq ι] {p : Parts ι}

omit [DecidableEq ι] in
/-- Each answer of nickname `q` on the way, or heard, comes from another node of which `H` says that it had the nickname. -/
structure Backed (H : ι → U8 → Prop) (s : Segment ι) : Prop where
  waiting : ∀ i, ∀ b ∈ waiting (s.node i).x.1, ∀ q, Answers b q → H i q
  inbox : ∀ i, ∀ b ∈ s.inbox i, ∀ q, Answers b q → ∃ a, a ≠ i ∧ H a q
  unheard : ∀ i, ∀ b ∈ unheard (s.node i), ∀ q, Answers b q → ∃ a, a ≠ i ∧ H a q
  heard : ∀ i, ∀ m ∈ (s.node i).heard, ∀ q, ackFrom m q → ∃ a, a ≠ i ∧ H a q

theorem backed_act (hp : Proper p) (hA : ∀ i k, Reports (p.cb i k)) {H : ι → U8 → Prop} {s s' : Segment ι} (hs : Sound p s) (h : Backed H s) (hH : ∀ a q, uses (s.node a).w q → H a q)
    {i : ι} {mv : Driver.CanNode.Move} (hm : Spec.CanNode.Ok mv) (hmo : (∃ b, mv = .rx b ∧ ∀ q, Answers b q → ∃ a, a ≠ i ∧ H a q) ∨ (∀ b, mv ≠ .rx b) ∧ Reserved (.own i mv))
    {rest : List BusFrame} (hr : ∀ b ∈ rest, ∀ q, Answers b q → ∃ a, a ≠ i ∧ H a q) (e : act p s i mv rest = .ok s') : Backed H s' := by
  obtain ⟨n, hn, e1, e2, e3, e4⟩ := act_eq e
  obtain ⟨-, ⟨q, t, hf⟩, heff⟩ := moved (hp.cfg i _) (hp.cb i _) _ (hs.fine i) hm hn
  have hq : n.x.2.wire.drop (s.node i).x.2.wire.length = q := by rw [hf.wire, List.drop_left]
  have hto : ∀ m ∈ taken t, ∀ q, Answers (wireOf m) q → H i q := by
    intro m hmt q' hans
    have hmt := mem_of_taken hmt
    have same : n.w.out = (s.node i).w.out → False := by
      intro h
      rw [hf.out] at h
      have : t = [] := by simpa using h
      rw [this] at hmt
      cases hmt
    have no : ∀ {k : U16}, m.cls = k → k.toNat < 512 → k ≠ 0 → H i q' := fun h1 h2 h0 => by
      have := (wire_answers (by rw [h1]; exact h2) hans).1
      exact absurd (h1.symm.trans this) h0
    cases mv with
    | cycle =>
      obtain ⟨m', h1, -⟩ := heff
      have h3 : m.typ = 3 := by
        have := hans.1
        rw [wireOf_class] at this
        have h8 := m.typ.isLt
        exact BitVec.eq_of_toNat_eq (by show m.typ.toNat = 3; omega)
      obtain ⟨k1, k2⟩ := cycle_ack (hp.cb i _) (hp.proto i _) (hA i _) (rx := m') (by rw [← h1]; exact hf.out) hmt h3
      obtain ⟨w1, -, w3⟩ := wire_answers k1 hans
      rw [← w3]
      exact hH i _ (k2 w1)
    | call op =>
      have := Speech.C118_calls (c := p.ctx i (s.life i)) (op := op) (w := (s.node i).w) (by rw [← heff.1]; exact hf.out) hmt
      cases op with
      | process rx => exact absurd rfl (heff.2.1 rx)
      | sendEvent m' =>
        rcases hmo with ⟨b, hb, -⟩ | ⟨-, hmo⟩
        · cases hb
        · have e : m = m' := this
          subst e
          have w := wire_answers hmo.1 hans
          exact absurd ⟨w.1, w.2.1⟩ hmo.2
      | log _ _ _ => exact no this.1 (by decide) (by decide)
      | logUInt32 _ _ _ => exact no this.1 (by decide) (by decide)
      | _ => exact this.elim
    | rx b => exact (same (by rw [heff.1])).elim
    | tx => exact (same (by rw [heff.1])).elim
  have gone : ∀ b ∈ q ++ waiting n.x.1, ∀ q, Answers b q → H i q := by
    intro b hb
    rcases List.mem_append.1 (hf.perm.mem_iff.1 hb) with hb | hb
    · exact h.waiting i b hb
    · obtain ⟨m, hm, rfl⟩ := List.mem_map.1 hb
      exact hto m hm
  refine ⟨fun j b hb => ?_, fun j b hb => ?_, fun j b hb => ?_, fun j m hmm => ?_⟩
  · by_cases hj : j = i
    · subst hj; rw [e2] at hb; exact gone b (List.mem_append_right _ hb)
    · rw [(e4 j hj).1] at hb; exact h.waiting j b hb
  · by_cases hj : j = i
    · subst hj; rw [e3] at hb; exact hr b hb
    · rw [(e4 j hj).2, hq] at hb
      rcases List.mem_append.1 hb with hb | hb
      · exact h.inbox j b hb
      · exact fun q' ha => ⟨i, Ne.symm hj, gone b (List.mem_append_left _ hb) q' ha⟩
  · by_cases hj : j = i
    · subst hj
      rw [e2] at hb
      cases mv with
      | cycle => obtain ⟨m, -, -, h3, -⟩ := heff; rw [h3] at hb; cases hb
      | call op => rw [heff.2.2.2] at hb; exact h.unheard j b hb
      | rx b' =>
        rcases unheard_rx hn b hb with hb | rfl
        · exact h.unheard j b hb
        · rcases hmo with ⟨b', hb, hmo⟩ | ⟨hmo, -⟩
          · cases hb; exact hmo
          · exact absurd rfl (hmo b)
      | tx => rw [heff.2.2] at hb; exact h.unheard j b hb
    · rw [(e4 j hj).1] at hb; exact h.unheard j b hb
  · by_cases hj : j = i
    · subst hj
      rw [e2] at hmm
      cases mv with
      | cycle =>
        obtain ⟨m0, -, h2, -, h3⟩ := heff
        rw [h2] at hmm
        rcases List.mem_append.1 hmm with hmm | hmm
        · exact h.heard j m hmm
        · rcases h3 with ⟨rfl, -⟩ | ⟨m', b, rfl, h4, h5⟩
          · cases hmm
          · cases List.mem_singleton.1 hmm
            exact fun q ha => h.unheard j b (by rw [h4]; exact List.mem_singleton_self _) q (carries_answers h5 ha)
      | call op => rw [heff.2.2.1] at hmm; exact h.heard j m hmm
      | rx b' => rw [heff.2.1] at hmm; exact h.heard j m hmm
      | tx => rw [heff.2.1] at hmm; exact h.heard j m hmm
    · rw [(e4 j hj).1] at hmm; exact h.heard j m hmm

theorem backed_step (hp : Proper p) (hA : ∀ i k, Reports (p.cb i k)) {H : ι → U8 → Prop} {s s' : Segment ι} (hs : Sound p s) (h : Backed H s) (hH : ∀ a q, uses (s.node a).w q → H a q)
    {mv : Move ι} (hm : CanSegment.Ok mv) (hmo : Reserved mv) (e : step p s mv = .ok s') : Backed H s' := by
  cases mv with
  | own i cmv =>
    refine backed_act hp hA hs h hH hm ?_ (h.inbox i) e
    cases cmv with
    | rx b => exact .inl ⟨b, rfl, fun q hq => absurd hq (hmo q)⟩
    | _ => exact .inr ⟨fun b hb => (by cases hb), hmo⟩
  | deliver i =>
    simp only [step] at e
    cases hb : s.inbox i with
    | nil => rw [hb] at e; cases e; exact h
    | cons b l =>
      rw [hb] at e
      exact backed_act hp hA hs h hH (mv := .rx b) (hs.inbox i b (by rw [hb]; exact List.mem_cons_self ..)) (.inl ⟨b, rfl, h.inbox i b (by rw [hb]; exact List.mem_cons_self ..)⟩)
        (fun b' hb' => h.inbox i b' (by rw [hb]; exact List.mem_cons_of_mem _ hb')) e
  | power i ok ps ctl =>
    cases e
    refine ⟨fun j b hb => ?_, fun j b hb => ?_, fun j b hb => ?_, fun j m hb => ?_⟩
    · dsimp only at hb
      by_cases hj : j = i
      · rw [if_pos hj, boot_waiting] at hb; cases hb
      · rw [if_neg hj] at hb; exact h.waiting j b hb
    · dsimp only at hb
      by_cases hj : j = i
      · rw [if_pos hj] at hb; cases hb
      · rw [if_neg hj] at hb; exact h.inbox j b hb
    · dsimp only at hb
      by_cases hj : j = i
      · rw [if_pos hj, boot_unheard] at hb; cases hb
      · rw [if_neg hj] at hb; exact h.unheard j b hb
    · dsimp only at hb
      by_cases hj : j = i
      · rw [if_pos hj] at hb; cases hb
      · rw [if_neg hj] at hb; exact h.heard j m hb

omit [DecidableEq ι] in
theorem backed_start (H : ι → U8 → Prop) (ok : ι → Tmr → Bool) (ps : ι → Nat → U8) (ctl : ι → Driver.CanDrv.State) : Backed H (start p ok ps ctl) where
  inbox := fun i b hb => by cases hb
  unheard := fun i b hb => absurd hb (by show b ∉ CanSegment.unheard (boot _ _ _ _ _); rw [boot_unheard]; exact List.not_mem_nil)
  waiting := fun i b hb => absurd hb (by show b ∉ waiting (boot _ _ _ _ _).x.1; rw [boot_waiting]; exact List.not_mem_nil)
  heard := fun i m hm => by cases hm

theorem backed_run (hp : Proper p) (hA : ∀ i k, Reports (p.cb i k)) {H : ι → U8 → Prop} : ∀ (l : List (Move ι)) (s s' : Segment ι), Sound p s → Backed H s →
    (∀ mv ∈ l, CanSegment.Ok mv ∧ Reserved mv) → (∀ pre post s1, l = pre ++ post → run p pre s = .ok s1 → ∀ a q, uses (s1.node a).w q → H a q) → run p l s = .ok s' → Backed H s'
  | [], s, s', _, h, _, _, e => by cases e; exact h
  | mv :: l, s, s', hs, h, hl, hH, e => by
    obtain ⟨hm, hmo⟩ := hl mv (List.mem_cons_self ..)
    unfold run at e
    cases hx : step p s mv with
    | ub => rw [hx] at e; cases e
    | impossible => rw [hx] at e; cases e
    | ok s1 =>
      rw [hx] at e
      refine backed_run hp hA l s1 s' (sound_step hp hs hm hx) (backed_step hp hA hs h (hH [] _ s rfl rfl) hm hmo hx) (fun mv h => hl mv (List.mem_cons_of_mem _ h)) ?_ e
      intro pre post s2 e2 hr
      refine hH (mv :: pre) post s2 (by rw [e2]; rfl) ?_
      show (match step p s mv with | .ok s => run p pre s | .ub => .ub | .impossible => .impossible) = _
      rw [hx]
      exact hr

/-- C126: nodes on a CAN bus, whatever happens and whenever.  If a node hears an answer of nickname `q` to a probe, then another node had this nickname at some time before; provided that neither an
application nor something else than a node answers probes. -/
theorem C126_answers (hp : Proper p) (hA : ∀ i k, Reports (p.cb i k)) (ok : ι → Tmr → Bool) (ps : ι → Nat → U8) (ctl : ι → Driver.CanDrv.State) (l : List (Move ι))
    (hl : ∀ mv ∈ l, CanSegment.Ok mv ∧ Reserved mv) {s : Segment ι} (e : run p l (start p ok ps ctl) = .ok s) {i : ι} {m : Msg} (hm : m ∈ (s.node i).heard) {q : U8} (hq : ackFrom m q) :
    ∃ a, a ≠ i ∧ ∃ pre post s1, l = pre ++ post ∧ run p pre (start p ok ps ctl) = .ok s1 ∧ uses (s1.node a).w q :=
  (backed_run hp hA (H := fun a q => ∃ pre post s1, l = pre ++ post ∧ run p pre (start p ok ps ctl) = .ok s1 ∧ uses (s1.node a).w q) l _ _ (sound_start hp ok ps ctl)
    (backed_start _ ok ps ctl) hl (fun pre post s1 e1 e2 a q hu => ⟨pre, post, s1, e1, e2, hu⟩) e).heard i m hm q hq

/-! ### Example -/

theorem exReports (i : Bool) (k : Nat) : Reports (exParts.cb i k) := by
  intro w op hm
  unfold exParts Avr.Surr.cb Avr.cb at hm
  dsimp only at hm
  split at hm
  · split at hm
    · cases List.mem_singleton.1 hm; exact ⟨_, rfl, (by decide : (20 : U16).toNat < 512), fun h => absurd (show (20 : U16) = 0 from h.1) (by decide)⟩
    · split at hm
      · cases List.mem_singleton.1 hm; exact ⟨_, rfl, (by decide : (20 : U16).toNat < 512), fun h => absurd (show (20 : U16) = 0 from h.1) (by decide)⟩
      · cases hm
  · cases hm

/-- The hypotheses of `C126_answers` are met: the second of two nodes with the nickname 5 hears the answer of the first one. -/
example : (∀ mv ∈ exBoth ++ [exTx false, .deliver true, exCyc true, exTx true, .deliver false, exCyc false], CanSegment.Ok mv ∧ Reserved mv) ∧
    (match run exParts (exBoth ++ [exTx false, .deliver true, exCyc true, exTx true, .deliver false, exCyc false]) (exStart 5 5) with
    | .ok s => (s.node false).heard.any fun m => decide (m.cls = 0 ∧ m.typ = 3 ∧ m.oAddr = 5)
    | _ => false) = true := by
  refine ⟨?_, by decide +kernel⟩
  intro mv h
  simp only [exBoth, exCyc, exTx, List.mem_append, List.mem_cons, List.not_mem_nil, or_false] at h
  rcases h with (rfl | rfl | rfl | rfl | rfl) | rfl | rfl | rfl | rfl | rfl | rfl <;> exact ⟨trivial, trivial⟩

end Vscp.CanSegment
