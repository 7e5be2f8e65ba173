import Verif.Spec.FK
import Verif.Model.RowPred
/-!
# What a row predicate failure is (docstrings of `add_data_row_predicate` and `find_data_row_failures`)

Only the data types of the model (not its algorithms) are used here.
-/
namespace Ticdat.Spec
variable {V K D : Type}

/-- The text of a handled exception. -/
def handledText (msg : String) : String := "Exception<" ++ msg ++ ">"

/-- The predicate rejects the record, with this error message (if the response is "Error Message"): it returns something
falsey, or (for error messages) something that is not the literal `True`, or it raises. -/
inductive Rejects (p : RowPred V K) (kw : Option K) (r : Rec V) : Option String → Prop
  | falsey {text : String} : p.message = false → p.run kw r = .ret (.obj false text) → Rejects p kw r none
  | raisedBool {e : String} : p.message = false → p.run kw r = .raised e → Rejects p kw r none
  | notTrue {b : Bool} {text : String} : p.message = true → p.run kw r = .ret (.obj b text) → Rejects p kw r (some text)
  | raisedMsg {e : String} : p.message = true → p.run kw r = .raised e → Rejects p kw r (some (handledText e))

/-- The keyword arguments a predicate should get: those its own `predicate_kwargs_maker` makes from the data object, which
is converted first when a conversion was asked for this predicate. -/
inductive Args (K : Type) where
  | args (k : Option K)
  | notDict (msg : String)
  | raises (msg : String)

/-- The message for something that is not a dict. -/
def notDictMessage (s : Option String) : String :=
  match s with
  | some s => if hasExc s then s else "predicate_kwargs_maker failed to return a dict"
  | none => "predicate_kwargs_maker failed to return a dict"

def makerArgs : MRes K → Args K
  | .dict k => .args (some k)
  | .str s => .notDict (notDictMessage (some s))
  | .other => .notDict (notDictMessage none)
  | .raised e => .raises e

/-- Does the predicate named `key` want converted data? -/
def WantsConversion (env : PredEnv K D) (key : String × PName) : Prop := env.convert.isSome ∧ key ∈ env.convertFor

instance (env : PredEnv K D) (key : String × PName) : Decidable (WantsConversion env key) :=
  inferInstanceAs (Decidable (_ ∧ _))

def ownArgs (env : PredEnv K D) (key : String × PName) (p : RowPred V K) : Args K :=
  match p.maker with
  | none => .args none
  | some m =>
    match env.convert with
    | none => makerArgs (env.makers m env.dat)
    | some c =>
      if WantsConversion env key then
        match c env.dat with
        | .dat d => makerArgs (env.makers m d)
        | .str s => .notDict (notDictMessage (some s))
        | .raised e => .raises e
      else makerArgs (env.makers m env.dat)

/-- An entry that should be reported for the predicate `p` named `key` on the table records `rs`. -/
inductive Entry {PK : Type} (env : PredEnv K D) (rs : List (PK × Rec V)) (key : String × PName) (p : RowPred V K) :
    RowFail PK → Prop
  | notDict {m : String} : ownArgs env key p = .notDict m → Entry env rs key p (.star m)
  | makerRaised {e : String} : ownArgs env key p = .raises e →
      Entry env rs key p (.star (notDictMessage (some (handledText e))))
  | row {kw : Option K} {pk : PK} {r : Rec V} {err : Option String} : ownArgs env key p = .args kw → (pk, r) ∈ rs →
      Rejects p kw r err → Entry env rs key p (.row pk err)

/-- No maker, conversion or predicate raises. -/
def NoRaise {PK : Type} (env : PredEnv K D) (rowsOf : String → List (PK × Rec V))
    (preds : List ((String × PName) × RowPred V K)) : Prop :=
  ∀ key p, (key, p) ∈ preds → (∀ e, ownArgs env key p ≠ .raises e) ∧
    ∀ kw, ownArgs env key p = .args kw → ∀ q ∈ rowsOf key.1, ∀ e, p.run kw q.2 ≠ .raised e

/-- Predicates that share a maker agree on whether they want converted data. -/
def MakersAgree (env : PredEnv K D) (preds : List ((String × PName) × RowPred V K)) : Prop :=
  ∀ a ∈ preds, ∀ b ∈ preds, a.2.maker.isSome → a.2.maker = b.2.maker →
    (WantsConversion env a.1 ↔ WantsConversion env b.1)

end Ticdat.Spec
