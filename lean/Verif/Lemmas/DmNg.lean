/-
The rule interpreter of the decision matrix next generation on well-formed rules.
-/
import Verif.Spec.DmNg
import Verif.Lemmas.FootNode
import Verif.Props.Util

namespace Vscp.NgProps
open M Vscp.Spec Vscp.Spec.DmNg

theorem zone0_not1 {a b : Nat} (h0 : ZoneInByte0 a b) : ¬ ZoneInByte1 a b := by
  unfold ZoneInByte0 at h0; unfold ZoneInByte1; simp [zoneClasses]; omega

theorem data_get (m : Msg) (i : Nat) (hi : i < 8) : m.data.toList[i]? = some (m.data.toList.getD i 0) := by
  rw [List.getD_eq_getElem?_getD, List.getElem?_eq_getElem (by simpa using hi)]
  rfl

theorem getZone_eq (m : Msg) : (DmNg.getZone m).toNat = zoneValue m m.data.toList 0 := by
  unfold DmNg.getZone zoneValue
  simp only [Util.C08_zone_index]
  by_cases h0 : ZoneInByte0 m.cls.toNat m.typ.toNat
  · rw [if_pos h0, if_pos h0, if_pos (by decide), data_get m 0 (by omega)]; rfl
  · rw [if_neg h0, if_neg h0]
    by_cases h1 : ZoneInByte1 m.cls.toNat m.typ.toNat
    · rw [if_pos h1, if_pos h1, if_pos (by decide), data_get m (0 + 1) (by omega)]; rfl
    · rw [if_neg h1, if_neg h1, if_neg (by decide)]; rfl

theorem getSubZone_eq (m : Msg) : ∃ z, DmNg.getSubZone m = some z ∧ z.toNat = zoneValue m m.data.toList 1 := by
  have hv : ∀ i (_ : i < 8), m.data[i]? = some (m.data.toList.getD i 0) := by
    intro i hi
    rw [← data_get m i hi, Vector.getElem?_toList]
  unfold DmNg.getSubZone zoneValue
  simp only [Util.C08_zone_index]
  by_cases h0 : ZoneInByte0 m.cls.toNat m.typ.toNat
  · rw [if_pos h0, if_pos h0, if_pos (by decide), data_get m 1 (by omega), hv _ (by decide)]; exact ⟨_, rfl, rfl⟩
  · rw [if_neg h0, if_neg h0]
    by_cases h1 : ZoneInByte1 m.cls.toNat m.typ.toNat
    · rw [if_pos h1, if_pos h1, if_pos (by decide), data_get m (1 + 1) (by omega), hv _ (by decide)]; exact ⟨_, rfl, rfl⟩
    · rw [if_neg h1, if_neg h1, if_neg (by decide)]; exact ⟨_, rfl, rfl⟩

theorem dataValue_eq (m : Msg) (hm : m.size.toNat ≤ 8) (i : Nat) :
    ∃ v, DmNg.dataValue m i = some v ∧ v.toNat = ((payload m)[i]?.getD 0).toNat := by
  unfold DmNg.dataValue payload
  by_cases h : m.size.toNat > i
  · rw [if_pos h, List.getElem?_take_of_lt h, Vector.getElem?_toList, Vector.getElem?_eq_getElem (by omega)]
    refine ⟨_, rfl, ?_⟩
    simp only [Option.getD_some, BitVec.toNat_setWidth]
    have := (m.data[i]'(by omega)).isLt
    omega
  · rw [if_neg h, List.getElem?_take_eq_none (by omega)]
    exact ⟨0, rfl, rfl⟩

theorem sw16 (x : U8) : (x.setWidth 16).toNat = x.toNat := by
  rw [BitVec.toNat_setWidth]; have := x.isLt; omega

/-- The additional index byte. -/
def dataIndex : Par → U8
  | .data i => i
  | _ => 0

theorem parValue_eq (m : Msg) (hm : m.size.toNat ≤ 8) (p : Par) (hp : ∀ i, p = .dataShort i → i < 7) :
    ∃ v, DmNg.getEventParValue m (BitVec.ofNat 8 p.id) (dataIndex p) = some v ∧ v.toNat = p.value m m.data.toList := by
  cases p with
  | cls => exact ⟨_, rfl, rfl⟩
  | typ => exact ⟨_, rfl, sw16 _⟩
  | oAddr => exact ⟨_, rfl, sw16 _⟩
  | hard => refine ⟨_, rfl, ?_⟩; cases h : m.hard <;> simp [Par.value, h]
  | prio => exact ⟨_, rfl, sw16 _⟩
  | zone => exact ⟨_, rfl, by rw [sw16, getZone_eq]; rfl⟩
  | subZone =>
    obtain ⟨z, h1, h2⟩ := getSubZone_eq m
    refine ⟨z.setWidth 16, ?_, by rw [sw16, h2]; rfl⟩
    show (DmNg.getSubZone m).map _ = _
    rw [h1]; rfl
  | num => exact ⟨_, rfl, sw16 _⟩
  | dataShort i =>
    have hi := hp i rfl
    obtain ⟨v, h1, h2⟩ := dataValue_eq m hm i
    refine ⟨v, ?_, h2⟩
    rw [← h1]
    match i, hi with
    | 0, _ => rfl
    | 1, _ => rfl
    | 2, _ => rfl
    | 3, _ => rfl
    | 4, _ => rfl
    | 5, _ => rfl
    | 6, _ => rfl
  | data i => exact dataValue_eq m hm i.toNat

theorem mask_iff (a b : U16) : (a &&& b ≠ 0) ↔ ∃ i, a.toNat.testBit i = true ∧ b.toNat.testBit i = true := by
  constructor
  · intro h
    have : (a &&& b).toNat ≠ 0 := fun e => h (BitVec.eq_of_toNat_eq e)
    obtain ⟨i, hi⟩ := Nat.exists_testBit_of_ne_zero this
    rw [BitVec.toNat_and, Nat.testBit_and, Bool.and_eq_true] at hi
    exact ⟨i, hi⟩
  · rintro ⟨i, h1, h2⟩ e
    have : (a &&& b).toNat.testBit i = true := by rw [BitVec.toNat_and, Nat.testBit_and, h1, h2]; rfl
    rw [e] at this
    simp at this

theorem compare_iff (r : Rel) (a b : U16) : DmNg.compare (BitVec.ofNat 8 r.code) a b = true ↔ r.holds a.toNat b.toNat := by
  cases r with
  | never => exact ⟨fun h => (nomatch h), False.elim⟩
  | eq => 
    show (a == b) = true ↔ a.toNat = b.toNat
    rw [beq_iff_eq]
    exact ⟨fun h => by rw [h], BitVec.eq_of_toNat_eq⟩
  | lt => exact decide_eq_true_iff
  | gt => exact decide_eq_true_iff
  | le => exact decide_eq_true_iff
  | ge => exact decide_eq_true_iff
  | mask =>
    show (a &&& b != 0) = true ↔ _
    rw [bne_iff_ne]
    exact mask_iff a b

theorem op_basic (r : Rel) (l : Nat) (hl : l = 0 ∨ l = 16 ∨ l = 32) :
    BitVec.ofNat 8 (l + r.code) &&& 0x0F = BitVec.ofNat 8 r.code ∧ BitVec.ofNat 8 (l + r.code) &&& 0xF0 = BitVec.ofNat 8 l ∧
    (BitVec.ofNat 8 r.code : U8).toNat < 7 := by
  rcases hl with rfl | rfl | rfl <;> cases r <;> decide

theorem id_eq (p : Par) (hp : ∀ i, p = .dataShort i → i < 7) : (BitVec.ofNat 8 p.id : U8).toNat = p.id ∧ p.id < 17 ∧
    ((BitVec.ofNat 8 p.id : U8) = 16 ↔ ∃ i, p = .data i) ∧ ((BitVec.ofNat 8 p.id : U8) = 1 ↔ p = .cls) := by
  have key : ∀ i, i < 7 → (BitVec.ofNat 8 (9 + i) : U8).toNat = 9 + i ∧ (BitVec.ofNat 8 (9 + i) : U8) ≠ 16 ∧ (BitVec.ofNat 8 (9 + i) : U8) ≠ 1 := by
    decide
  cases p with
  | dataShort i =>
    have h := key i (hp i rfl)
    have := hp i rfl
    refine ⟨h.1, by simp only [Par.id]; omega, ⟨fun e => absurd e h.2.1, fun ⟨_, e⟩ => by cases e⟩, ⟨fun e => absurd e h.2.2, fun e => by cases e⟩⟩
  | data i => exact ⟨rfl, by simp [Par.id], ⟨fun _ => ⟨i, rfl⟩, fun _ => rfl⟩, ⟨fun e => absurd e (by simp [Par.id]), fun e => by cases e⟩⟩
  | cls => exact ⟨rfl, by decide, ⟨fun e => absurd e (by decide), fun ⟨_, e⟩ => by cases e⟩, ⟨fun _ => rfl, fun _ => rfl⟩⟩
  | _ => exact ⟨rfl, by decide, ⟨fun e => absurd e (by decide), fun ⟨_, e⟩ => by cases e⟩, ⟨fun e => absurd e (by decide), fun e => by cases e⟩⟩

theorem mkWord_value (n : Nat) (h : n < 65536) : (mkWord (BitVec.ofNat 8 (n / 256)) (BitVec.ofNat 8 (n % 256))).toNat = n := by
  unfold mkWord
  rw [BitVec.toNat_or, BitVec.toNat_shiftLeft, sw16, sw16, BitVec.toNat_ofNat, BitVec.toNat_ofNat,
    Nat.mod_eq_of_lt (by omega : n / 256 < 2 ^ 8), Nat.mod_eq_of_lt (by omega : n % 256 < 2 ^ 8),
    Nat.mod_eq_of_lt (by rw [Nat.shiftLeft_eq]; omega), ← Nat.shiftLeft_add_eq_or_of_lt (by omega), Nat.shiftLeft_eq]
  omega

open Classical in
/-- A well-formed condition. -/
theorem parseCond_eq {rule : List U8} {size index : Nat} {m : Msg} (hm : m.size.toNat ≤ 8) {x : Cond} (hx : x.Ok) {l : Nat}
    (hl : l = 0 ∨ l = 16 ∨ l = 32) (hr : ∀ j, j < (x.bytes l).length → rule[3 + (index + j)]? = (x.bytes l)[j]?)
    (hs : index + (x.bytes l).length ≤ size) :
    DmNg.parseCond rule size m index =
      some (some (decide (x.Holds m m.data.toList), BitVec.ofNat 8 l, index + (x.bytes l).length)) := by
  obtain ⟨rel, par, value⟩ := x
  obtain ⟨hv, hp⟩ := hx
  simp only at hv hp
  obtain ⟨o1, o2, o3⟩ := op_basic rel l hl
  obtain ⟨i1, i2, i3, i4⟩ := id_eq par hp
  obtain ⟨v, v1, v2⟩ := parValue_eq m hm par hp
  have hlog : ¬ ((BitVec.ofNat 8 l : U8) ≠ 0x00 ∧ (BitVec.ofNat 8 l : U8) ≠ 0x10 ∧ (BitVec.ofNat 8 l : U8) ≠ 0x20) := by
    rcases hl with rfl | rfl | rfl <;> decide
  have hlen : 3 ≤ ((⟨rel, par, value⟩ : Cond).bytes l).length := by
    unfold Cond.bytes; rw [List.length_append, List.length_append]; split <;> split <;> simp
  have r0 : rule[3 + index]? = some (BitVec.ofNat 8 (l + rel.code)) := hr 0 (by omega)
  have r1 : rule[3 + (index + 1)]? = some (BitVec.ofNat 8 par.id) := hr 1 (by omega)
  unfold DmNg.parseCond
  rw [if_neg (by omega), r0]
  simp only [o1, o2]
  rw [if_neg (by omega), if_neg hlog, r1]
  simp only
  rw [if_neg (by omega)]
  have fin : ∀ u : U16, u.toNat = value → decide ((⟨rel, par, value⟩ : Cond).Holds m m.data.toList) = DmNg.compare (BitVec.ofNat 8 rel.code) v u := by
    intro u hu
    rw [Bool.eq_iff_iff, compare_iff, decide_eq_true_iff, hu, v2]
    rfl
  by_cases hd : ∃ i, par = .data i
  · obtain ⟨i, rfl⟩ := hd
    have hb : (⟨rel, .data i, value⟩ : Cond).bytes l = [BitVec.ofNat 8 (l + rel.code), 16, i, BitVec.ofNat 8 value] := rfl
    rw [hb] at hr hs ⊢
    have r2 : rule[3 + (index + 2)]? = some i := hr 2 (by simp)
    have r3 : rule[3 + (index + 3)]? = some (BitVec.ofNat 8 value) := hr 3 (by simp)
    have hlt : value < 256 := by simpa using hv
    have e16 : (BitVec.ofNat 8 (Par.data i).id : U8) = 16 := rfl
    have hne : ¬ (16 : U8) = 1 := by decide
    rw [show dataIndex (.data i) = i from rfl] at v1
    simp only [e16, if_true] at v1 ⊢
    rw [r2]
    simp only
    rw [if_neg (by simp only [List.length_cons, List.length_nil] at hs; omega), v1, r3]
    simp only
    rw [if_neg hne, fin ((BitVec.ofNat 8 value).setWidth 16) (by rw [sw16, BitVec.toNat_ofNat]; omega)]
    rfl
  · have hne16 : ¬ (BitVec.ofNat 8 par.id : U8) = 16 := fun e => hd (i3.mp e)
    have hdi : dataIndex par = 0 := by
      cases par with
      | data i => exact absurd ⟨i, rfl⟩ hd
      | _ => rfl
    simp only [hne16, if_false, false_and]
    rw [hdi] at v1
    rw [v1]
    by_cases hc : par = .cls
    · subst hc
      have hb : (⟨rel, .cls, value⟩ : Cond).bytes l = [BitVec.ofNat 8 (l + rel.code), 1, BitVec.ofNat 8 (value / 256), BitVec.ofNat 8 (value % 256)] := rfl
      rw [hb] at hr hs ⊢
      have r2 : rule[3 + (index + 2)]? = some (BitVec.ofNat 8 (value / 256)) := hr 2 (by simp)
      have r3 : rule[3 + (index + 2 + 1)]? = some (BitVec.ofNat 8 (value % 256)) := hr 3 (by simp)
      have hlt : value < 65536 := by simpa using hv
      rw [r2]
      simp only
      rw [if_pos (show (BitVec.ofNat 8 Par.cls.id : U8) = 1 from rfl), if_neg (by simp only [List.length_cons, List.length_nil] at hs; omega), r3, fin _ (mkWord_value value hlt)]
      rfl
    · have hb : (⟨rel, par, value⟩ : Cond).bytes l = [BitVec.ofNat 8 (l + rel.code), BitVec.ofNat 8 par.id, BitVec.ofNat 8 value] := by
        cases par with
        | data i => exact absurd ⟨i, rfl⟩ hd
        | cls => exact absurd rfl hc
        | _ => rfl
      rw [hb] at hr hs ⊢
      have r2 : rule[3 + (index + 2)]? = some (BitVec.ofNat 8 value) := hr 2 (by simp)
      have hlt : value < 256 := by simpa [hc] using hv
      rw [r2]
      simp only
      rw [if_neg (fun e => hc (i4.mp e)), fin ((BitVec.ofNat 8 value).setWidth 16) (by rw [sw16, BitVec.toNat_ofNat]; omega)]
      rfl

theorem Cond.bytes_len (x : Cond) (l : Nat) : 3 ≤ (x.bytes l).length := by
  unfold Cond.bytes; rw [List.length_append, List.length_append]; split <;> split <;> simp

open Classical in
/-- The decision of well-formed conditions. -/
theorem decision_eq {rule : List U8} {size : Nat} {m : Msg} (hm : m.size.toNat ≤ 8) (ch : Chain) :
    ∀ (index : Nat) (result : Bool) (prev : Option U8), (∀ x ∈ ch.conds, x.Ok) →
      (prev = none ∨ (prev = some 16 ∧ result = true) ∨ (prev = some 32 ∧ result = false)) →
      (∀ j, j < ch.bytes.length → rule[3 + (index + j)]? = ch.bytes[j]?) → index + ch.bytes.length ≤ size →
      DmNg.decisionLoop rule size m index result prev = some (decide (ch.HoldsRight m m.data.toList)) := by
  have step : ∀ (x : Cond) (l : Nat), (l = 0 ∨ l = 16 ∨ l = 32) → x.Ok → ∀ (index : Nat) (result : Bool) (prev : Option U8),
      (prev = none ∨ (prev = some 16 ∧ result = true) ∨ (prev = some 32 ∧ result = false)) →
      (∀ j, j < (x.bytes l).length → rule[3 + (index + j)]? = (x.bytes l)[j]?) → index + (x.bytes l).length ≤ size →
      DmNg.decisionLoop rule size m index result prev =
        if (BitVec.ofNat 8 l : U8) = 0x10 ∧ decide (x.Holds m m.data.toList) = false then some (decide (x.Holds m m.data.toList))
        else if (BitVec.ofNat 8 l : U8) = 0x20 ∧ decide (x.Holds m m.data.toList) = true then some (decide (x.Holds m m.data.toList))
        else if (BitVec.ofNat 8 l : U8) = 0 then some (decide (x.Holds m m.data.toList))
        else DmNg.decisionLoop rule size m (index + (x.bytes l).length) (decide (x.Holds m m.data.toList)) (some (BitVec.ofNat 8 l)) := by
    intro x l hl hx index result prev hp hr hs
    have hpc := parseCond_eq hm hx hl hr hs
    rw [DmNg.decisionLoop]
    split
    · rename_i h; rw [hpc] at h; cases h
    · rename_i h; rw [hpc] at h; cases h
    · rename_i cond logicOp next h
      rw [hpc] at h
      simp only [Option.some.injEq, Prod.mk.injEq] at h
      obtain ⟨rfl, rfl, rfl⟩ := h
      rcases hp with rfl | ⟨rfl, rfl⟩ | ⟨rfl, rfl⟩
      · rfl
      · simp only [if_true, Bool.true_and]
      · have e : ¬ (32 : U8) = 16 := by decide
        simp only [e, if_true, if_false, Bool.false_or]
  induction ch with
  | last x =>
    intro index result prev hok hp hr hs
    rw [step x 0 (.inl rfl) (hok x (by simp [Chain.conds])) index result prev hp hr hs, if_neg (fun e => absurd e.1 (by decide)),
      if_neg (fun e => absurd e.1 (by decide)), if_pos (show (BitVec.ofNat 8 0 : U8) = 0 from rfl)]
    rfl
  | and x r ih =>
    intro index result prev hok hp hr hs
    simp only [Chain.bytes, List.length_append] at hr hs
    have hr1 : ∀ j, j < (x.bytes 16).length → rule[3 + (index + j)]? = (x.bytes 16)[j]? := by
      intro j hj
      rw [hr j (by omega), List.getElem?_append_left hj]
    rw [step x 16 (.inr (.inl rfl)) (hok x (by simp [Chain.conds])) index result prev hp hr1 (by omega)]
    by_cases h : x.Holds m m.data.toList
    · rw [if_neg (fun e => by simp [h] at e), if_neg (fun e => absurd e.1 (by decide)), if_neg (by decide),
        ih _ _ (some (BitVec.ofNat 8 16)) (fun y hy => hok y (by simp [Chain.conds, hy])) (.inr (.inl ⟨rfl, by simp [h]⟩)) ?_ (by omega)]
      · simp [Chain.HoldsRight, h]
      · intro j hj
        have := hr ((x.bytes 16).length + j) (by omega)
        rw [List.getElem?_append_right (by omega)] at this
        rw [show index + (x.bytes 16).length + j = index + ((x.bytes 16).length + j) by omega, this]
        congr 1; omega
    · rw [if_pos ⟨rfl, by simp [h]⟩]
      simp [Chain.HoldsRight, h]
  | or x r ih =>
    intro index result prev hok hp hr hs
    simp only [Chain.bytes, List.length_append] at hr hs
    have hr1 : ∀ j, j < (x.bytes 32).length → rule[3 + (index + j)]? = (x.bytes 32)[j]? := by
      intro j hj
      rw [hr j (by omega), List.getElem?_append_left hj]
    rw [step x 32 (.inr (.inr rfl)) (hok x (by simp [Chain.conds])) index result prev hp hr1 (by omega)]
    by_cases h : x.Holds m m.data.toList
    · rw [if_neg (fun e => absurd e.1 (by decide)), if_pos ⟨rfl, by simp [h]⟩]
      simp [Chain.HoldsRight, h]
    · rw [if_neg (fun e => absurd e.1 (by decide)), if_neg (fun e => by simp [h] at e), if_neg (by decide),
        ih _ _ (some (BitVec.ofNat 8 32)) (fun y hy => hok y (by simp [Chain.conds, hy])) (.inr (.inr ⟨rfl, by simp [h]⟩)) ?_ (by omega)]
      · simp [Chain.HoldsRight, h]
      · intro j hj
        have := hr ((x.bytes 32).length + j) (by omega)
        rw [List.getElem?_append_right (by omega)] at this
        rw [show index + (x.bytes 32).length + j = index + ((x.bytes 32).length + j) by omega, this]
        congr 1; omega

/-- A rule which can be stored: its conditions can be written down, and it is not longer than a rule can be. -/
structure RuleOk (r : Rule) : Prop where
  conds : ∀ x ∈ r.chain.conds, x.Ok
  size : r.bytes.length ≤ 40

theorem Chain.bytes_len (ch : Chain) : 3 ≤ ch.bytes.length := by
  cases ch with
  | last x => exact Cond.bytes_len x 0
  | and x r => have := Cond.bytes_len x 16; simp only [Chain.bytes, List.length_append]; omega
  | or x r => have := Cond.bytes_len x 32; simp only [Chain.bytes, List.length_append]; omega

theorem Rule.len (r : Rule) : r.bytes.length = 3 + r.chain.bytes.length := by
  simp [Rule.bytes]; omega

open Classical in
/-- The call of a rule. -/
theorem execRule_eq {m : Msg} (hm : m.size.toNat ≤ 8) {r : Rule} (hr : RuleOk r) (rest : List U8) (w : W) :
    DmNg.execRule (r.bytes ++ rest) m w =
      ((), { w with out := w.out ++ calls (fun ch => ch.HoldsRight m m.data.toList) [r] m }) := by
  have hl := Rule.len r
  have h40 := hr.size
  have h3 := Chain.bytes_len r.chain
  have hn : (BitVec.ofNat 8 (3 + r.chain.bytes.length) : U8).toNat = 3 + r.chain.bytes.length := by
    rw [BitVec.toNat_ofNat]; omega
  have e0 : (r.bytes ++ rest)[0]? = some (BitVec.ofNat 8 (3 + r.chain.bytes.length)) := rfl
  have e1 : (r.bytes ++ rest)[1]? = some r.action := rfl
  have e2 : (r.bytes ++ rest)[2]? = some r.par := rfl
  have hd : DmNg.getDecisionResult (r.bytes ++ rest) r.chain.bytes.length m = some (decide (r.chain.HoldsRight m m.data.toList)) := by
    unfold DmNg.getDecisionResult
    rw [if_neg (by omega)]
    refine decision_eq hm r.chain 0 false none hr.conds (.inl rfl) ?_ (by omega)
    intro j hj
    rw [List.getElem?_append_left (by omega)]
    show ([_, _, _] ++ r.chain.bytes)[3 + (0 + j)]? = _
    rw [List.getElem?_append_right (by simp)]
    congr 1
    simp
  unfold DmNg.execRule
  rw [e0, e1, e2]
  simp only
  rw [hn, if_pos (by omega), show 3 + r.chain.bytes.length - 3 = r.chain.bytes.length by omega, hd]
  simp only [calls, List.filterMap_cons, List.filterMap_nil]
  by_cases ha : r.action = 0
  · rw [if_neg (by simp [ha])]
    simp [ha, pure_run]
  · rw [if_pos ha]
    by_cases hh : r.chain.HoldsRight m m.data.toList
    · rw [if_pos ⟨ha, hh⟩]
      simp [hh]
    · simp [hh, pure_run]

/-! ### Rule sets -/

/-- The bytes `l` are in the rule set, starting with byte `i`. -/
def Stored (c : Cfg) (ps : Nat → U8) (i : Nat) (l : List U8) : Prop :=
  ∀ j, j < l.length → i + j < Ps.sizeDmNg c ∧ l[j]? = some (ps (Ps.addrDmNg c + (i + j)))

theorem Stored.left {c : Cfg} {ps : Nat → U8} {i : Nat} {l l' : List U8} (h : Stored c ps i (l ++ l')) : Stored c ps i l := by
  intro j hj
  have := h j (by simp; omega)
  rwa [List.getElem?_append_left hj] at this

theorem Stored.right {c : Cfg} {ps : Nat → U8} {i : Nat} {l l' : List U8} (h : Stored c ps i (l ++ l')) : Stored c ps (i + l.length) l' := by
  intro j hj
  have := h (l.length + j) (by simp; omega)
  rw [List.getElem?_append_right (by omega), show l.length + j - l.length = j by omega,
    show i + (l.length + j) = i + l.length + j by omega] at this
  exact this

theorem calls_cons (f : Chain → Prop) (r : Rule) (rs : List Rule) (m : Msg) : calls f (r :: rs) m = calls f [r] m ++ calls f rs m := by
  unfold calls
  rw [← List.filterMap_append]; rfl

/-- Fetching a rule of the rule set. -/
theorem next_eq (c : Ctx) (buf : List U8) (w : W) {r : Rule} (hr : r.bytes.length ≤ 40) (hc : w.dm.ngCnt ≠ 0)
    (hs : Stored c w.ps w.dm.ngIdx.toNat r.bytes) :
    DmNg.getNextRule c buf w = (some (r.bytes ++ buf.drop r.bytes.length),
      { w with dm := { w.dm with ngIdx := w.dm.ngIdx + BitVec.ofNat 16 r.bytes.length, ngCnt := w.dm.ngCnt - 1 } }) := by
  have hl := Rule.len r
  have h0 := hs 0 (by omega)
  have hsz : (Ps.readDmNg c w.dm.ngIdx.toNat w).1 = BitVec.ofNat 8 r.bytes.length := by
    rw [Foot.ngRead_run, if_pos (by omega)]
    have : r.bytes[0]? = some (BitVec.ofNat 8 (3 + r.chain.bytes.length)) := rfl
    rw [this] at h0
    rw [hl]
    exact (Option.some.inj h0.2).symm
  have hn : (BitVec.ofNat 8 r.bytes.length : U8).toNat = r.bytes.length := by rw [BitVec.toNat_ofNat]; omega
  have hw : (BitVec.ofNat 8 r.bytes.length : U8).setWidth 16 = BitVec.ofNat 16 r.bytes.length := by
    apply BitVec.eq_of_toNat_eq
    rw [BitVec.toNat_setWidth, hn, BitVec.toNat_ofNat]
  rw [Foot.ngGetNextRule_run, if_neg hc, hsz, hn, hw, if_neg (by omega)]
  refine Prod.ext (congrArg (fun l => some (l ++ _)) ?_) rfl
  refine List.ext_getElem (by simp) fun j h1 h2 => ?_
  have := hs j h2
  rw [List.getElem?_eq_getElem h2, Option.some.injEq] at this
  simp only [List.getElem_map, List.getElem_range]
  rw [Foot.ngRead_run, if_pos (by omega), this.2]

theorem rulesLoop_eq (c : Ctx) {m : Msg} (hm : m.size.toNat ≤ 8) (rs : List Rule) :
    ∀ (n : Nat) (r : Rule) (rest : List U8) (w : W), RuleOk r → (∀ r ∈ rs, RuleOk r) → rs.length < n → rs.length < 256 →
      w.dm.ngCnt = BitVec.ofNat 8 rs.length → Stored c w.ps w.dm.ngIdx.toNat (rs.flatMap Rule.bytes) →
      w.dm.ngIdx.toNat + 40 * rs.length < 65536 →
      ∃ d, DmNg.rulesLoop c m n (r.bytes ++ rest) w =
        ((), { w with out := w.out ++ calls (fun ch => ch.HoldsRight m m.data.toList) (r :: rs) m, dm := d }) := by
  induction rs with
  | nil =>
    intro n r rest w hr _ hn _ hc _ _
    obtain ⟨n, rfl⟩ : ∃ k, n = k + 1 := ⟨n - 1, by simp at hn; omega⟩
    refine ⟨w.dm, ?_⟩
    unfold DmNg.rulesLoop
    rw [bind_run, execRule_eq hm hr]
    simp only
    rw [bind_run, Foot.ngGetNextRule_run, if_pos (by exact hc)]
    rfl
  | cons q rs ih =>
    intro n r rest w hr hrs hn h256 hc hst hov
    simp only [List.length_cons] at hn h256 hc hov
    obtain ⟨n, rfl⟩ : ∃ k, n = k + 1 := ⟨n - 1, by omega⟩
    have hq := hrs q (by simp)
    have hql := hq.size
    rw [List.flatMap_cons] at hst
    unfold DmNg.rulesLoop
    rw [bind_run, execRule_eq hm hr]
    simp only
    rw [bind_run, next_eq c (r := q) _ _ hq.size ?_ (by exact hst.left)]
    · simp only
      have hix : (w.dm.ngIdx + BitVec.ofNat 16 q.bytes.length).toNat = w.dm.ngIdx.toNat + q.bytes.length := by
        rw [BitVec.toNat_add, BitVec.toNat_ofNat]; omega
      have h1 : w.dm.ngCnt - 1 = BitVec.ofNat 8 rs.length := by
        rw [hc]
        apply BitVec.eq_of_toNat_eq
        rw [BitVec.toNat_sub, BitVec.toNat_ofNat, BitVec.toNat_ofNat, show (1 : U8).toNat = 1 from rfl]
        omega
      obtain ⟨d, hd⟩ := ih n q _ { w with
          out := w.out ++ calls (fun ch => ch.HoldsRight m m.data.toList) [r] m,
          dm := { w.dm with ngIdx := w.dm.ngIdx + BitVec.ofNat 16 q.bytes.length, ngCnt := w.dm.ngCnt - 1 } }
        hq (fun x hx => hrs x (by simp [hx])) (by omega) (by omega) h1 (by simp only [hix]; exact hst.right) (by simp only [hix]; omega)
      exact ⟨d, by rw [hd, calls_cons _ r (q :: rs), List.append_assoc]⟩
    · simp only [hc]
      intro e
      have := congrArg BitVec.toNat e
      rw [BitVec.toNat_ofNat] at this
      simp at this
      omega

/-- A complete rule set. -/
theorem executeActions_eq (c : Ctx) {m : Msg} (hm : m.size.toNat ≤ 8) (rs : List Rule) (hrs : ∀ r ∈ rs, RuleOk r) (hl : rs.length < 256)
    (w : W) (hst : Stored c w.ps 0 (ruleSet rs)) :
    ∃ d, DmNg.executeActions c m w =
      ((), { w with out := w.out ++ calls (fun ch => ch.HoldsRight m m.data.toList) rs m, dm := d }) := by
  unfold DmNg.executeActions DmNg.getFirstRule
  have h0 := hst 0 (by simp [ruleSet])
  have hcnt : Ps.readDmNg c 0 w = (BitVec.ofNat 8 rs.length, w) := by
    rw [Foot.ngRead_run, if_pos (by omega)]
    have : (ruleSet rs)[0]? = some (BitVec.ofNat 8 rs.length) := rfl
    rw [this] at h0
    exact congrArg (·, w) (Option.some.inj h0.2).symm
  rw [bind_run, bind_run, hcnt]
  simp only
  rw [bind_run, modify_run]
  simp only
  have hr : Stored c w.ps 1 (rs.flatMap Rule.bytes) := Stored.right (l := [BitVec.ofNat 8 rs.length]) hst
  cases rs with
  | nil =>
    rw [Foot.ngGetNextRule_run, if_pos (by rfl)]
    exact ⟨_, by simp only [calls, List.filterMap_nil, List.append_nil]; rfl⟩
  | cons q rs =>
    simp only [List.length_cons] at hl
    rw [List.flatMap_cons] at hr
    have hq := hrs q (by simp)
    have hql := hq.size
    rw [next_eq c (r := q) _ _ hq.size ?_ (by exact hr.left)]
    · simp only
      have hix : ((1 : U16) + BitVec.ofNat 16 q.bytes.length).toNat = 1 + q.bytes.length := by
        rw [BitVec.toNat_add, BitVec.toNat_ofNat, show (1 : U16).toNat = 1 from rfl]; omega
      refine rulesLoop_eq c hm rs 256 q _ _ hq (fun x hx => hrs x (by simp [hx])) (by omega) (by omega) ?_ ?_ ?_
      · apply BitVec.eq_of_toNat_eq
        simp only [List.length_cons]
        rw [BitVec.toNat_sub, BitVec.toNat_ofNat, BitVec.toNat_ofNat]
        simp; omega
      · simp only [hix]; exact hr.right
      · simp only [hix]; omega
    · intro e
      have := congrArg BitVec.toNat e
      simp only [List.length_cons] at this
      rw [BitVec.toNat_ofNat] at this
      simp at this
      omega

end Vscp.NgProps
