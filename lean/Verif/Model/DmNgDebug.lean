/-
Model of src/vscp_dm_ng.c with `VSCP_DM_NG_DEBUG` (src/vscp_dm_ng.h:89, enabled): the error information of `vscp_dm_ng_getError`.  The functions of
Model/DmNg.lean once more, with the error information.
-/
import Verif.Model.DmNg

namespace Vscp
namespace DmNg
open M

/-- src/vscp_dm_ng.c:157-164: the static variables `vscp_dm_ng_error`, `vscp_dm_ng_errorRule`, `vscp_dm_ng_errorPos`; also what
src/vscp_dm_ng.c:388-401 `vscp_dm_ng_getError` returns -/
structure Err where
  flag : Bool
  rule : U8
  pos : U8
deriving DecidableEq

/-- src/vscp_dm_ng.c:98-103 `VSCP_DM_NG_DEBUG_CLR_ERROR` -/
def Err.clear : Err := ⟨false, 0, 0⟩

/-- src/vscp_dm_ng.c:106-112 `VSCP_DM_NG_DEBUG_INC_RULE` -/
def Err.incRule (e : Err) : Err := if e.flag = false then { e with rule := e.rule + 1 } else e

/-- src/vscp_dm_ng.c:115-121 `VSCP_DM_NG_DEBUG_INC_POS` -/
def Err.incPos (e : Err) (p : Nat) : Err := if e.flag = false then { e with pos := e.pos + BitVec.ofNat 8 p } else e

/-- src/vscp_dm_ng.c:92-95 `VSCP_DM_NG_DEBUG_SET_ERROR` -/
def Err.set (e : Err) : Err := { e with flag := true }

/-- src/vscp_dm_ng.c:368-369 and 586-587, if there is an error. -/
def Err.note (e : Err) : Option Nat → Err
  | none => e
  | some p => (e.incPos p).set

/-- `parseCond` with the value of `index` when the loop of src/vscp_dm_ng.c:432-527 is left because of an error. -/
def parseCondD (rule : List U8) (size : Nat) (m : Msg) (index : Nat) : Option (Except Nat (Bool × U8 × Nat)) :=
  if size ≤ index + 2 then some (.error index)
  else
    match rule[3 + index]? with
    | none => none
    | some op =>
      let basicOp := op &&& 0x0F
      let logicOp := op &&& 0xF0
      if 7 ≤ basicOp.toNat then some (.error (index + 1))
      else if logicOp ≠ 0x00 ∧ logicOp ≠ 0x10 ∧ logicOp ≠ 0x20 then some (.error (index + 1))
      else match rule[3 + (index + 1)]? with
        | none => none
        | some parId =>
          if 17 ≤ parId.toNat then some (.error (index + 2))
          else
            match (if parId = 16 then rule[3 + (index + 2)]? else some 0) with
            | none => none
            | some dataIndex =>
              let i2 := if parId = 16 then index + 3 else index + 2
              if parId = 16 ∧ size ≤ i2 then some (.error i2)
              else match getEventParValue m parId dataIndex, rule[3 + i2]? with
                | some par, some v =>
                  if parId = 1 then
                    if size ≤ i2 + 1 then some (.error (i2 + 1))
                    else match rule[3 + (i2 + 1)]? with
                      | none => none
                      | some lo => some (.ok (compare basicOp par (mkWord v lo), logicOp, i2 + 2))
                  else some (.ok (compare basicOp par (v.setWidth 16), logicOp, i2 + 1))
                | _, _ => none

theorem parseCondD_erase (rule : List U8) (size : Nat) (m : Msg) (index : Nat) :
    (parseCondD rule size m index).map Except.toOption = parseCond rule size m index := by
  unfold parseCondD parseCond
  split
  · rfl
  · cases rule[3 + index]? with
    | none => rfl
    | some op =>
      dsimp only
      split
      · rfl
      · split
        · rfl
        · cases rule[3 + (index + 1)]? with
          | none => rfl
          | some parId =>
            dsimp only
            split
            · rfl
            · generalize (if parId = 16 then rule[3 + (index + 2)]? else some 0) = x
              cases x with
              | none => rfl
              | some dataIndex =>
                dsimp only
                generalize (if parId = 16 then index + 3 else index + 2) = i2
                split
                · rfl
                · cases getEventParValue m parId dataIndex with
                  | none => rfl
                  | some par =>
                    cases rule[3 + i2]? with
                    | none => rfl
                    | some v =>
                      dsimp only
                      split
                      · split
                        · rfl
                        · cases rule[3 + (i2 + 1)]? with
                          | none => rfl
                          | some lo => rfl
                      · rfl

theorem parseCondD_ok {rule size m index x} (h : parseCondD rule size m index = some (.ok x)) : parseCond rule size m index = some (some x) := by
  rw [← parseCondD_erase, h]
  rfl

/-- `decisionLoop` with the position of the error (src/vscp_dm_ng.c:583-590). -/
def decisionLoopD (rule : List U8) (size : Nat) (m : Msg) (index : Nat) (result : Bool)
    (prev : Option U8) : Option (Bool × Option Nat) :=
  match _h : parseCondD rule size m index with
  | none => none
  | some (.error i) => some (false, some i)
  | some (.ok (cond, logicOp, next)) =>
    match (match prev with
      | none => some cond
      | some p =>
        if p = 0x10 then some (result && cond)
        else if p = 0x20 then some (result || cond)
        else none) with
    | none => some (false, some next)
    | some result =>
      if logicOp = 0x10 ∧ result = false then some (result, none)
      else if logicOp = 0x20 ∧ result = true then some (result, none)
      else if logicOp = 0 then some (result, none)
      else decisionLoopD rule size m next result (some logicOp)
termination_by size - index
decreasing_by
  have := parseCond_next (parseCondD_ok _h)
  omega

/-- src/vscp_dm_ng.c:417-593 `vscp_dm_ng_getDecisionResult` on `&rule[3]`, with the position of the error -/
def getDecisionResultD (rule : List U8) (size : Nat) (m : Msg) : Option (Bool × Option Nat) :=
  if size = 0 then some (false, none) else decisionLoopD rule size m 0 false none

/-- The body of the loop of src/vscp_dm_ng.c:326-371, with the error information. -/
def execRuleD (rule : List U8) (m : Msg) (e : Err) : M Err :=
  match rule[0]?, rule[1]?, rule[2]? with
  | some ruleSize, some actionId, some actionPar =>
    if 6 ≤ ruleSize.toNat then
      if actionId ≠ 0 then
        match getDecisionResultD rule (ruleSize.toNat - 3) m with
        | some (true, p) => do
          emit (.action actionId actionPar m)
          pure (e.incRule.note p)
        | some (false, p) => pure (e.incRule.note p)
        | none => do
          markUb
          pure e.incRule
      else pure e.incRule
    else pure (e.incRule.note (some 1))
  | _, _, _ => do
    markUb
    pure e.incRule

/-- The do-while loop of src/vscp_dm_ng.c:324-372, with the error information. -/
def rulesLoopD (c : Cfg) (m : Msg) : Nat → List U8 → Err → M Err
  | 0, _, e => do
    markUb
    pure e
  | n + 1, buf, e => do
    let e ← execRuleD buf m e
    match (← getNextRule c buf) with
    | some buf => rulesLoopD c m n buf e
    | none => pure e

/-- src/vscp_dm_ng.c:308-375 `vscp_dm_ng_executeActions` with the error information; `e` is the one in front of the call. -/
def executeActionsD (c : Ctx) (m : Msg) (e : Err) : M Err := do
  match (← getFirstRule c ((List.range RULE_MAX_SIZE).map c.garbage)) with
  | some buf => rulesLoopD c m 256 buf .clear
  | none => pure e

end DmNg
end Vscp
