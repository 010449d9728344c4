import Verif.Model.Annotate

/-!
# The operations of the language's own library

Model of `language/operation/std/operations.cc` and of what the classes `Abs`, `Add`, `Int32`, `Read` and `Write`
declare: the types of their parameters and results, and their type rules. What they do when executed is not part of
this (see `Model/StdOps.lean`): it is a parameter here.
-/

namespace Fern.Library

/-- `DataTypes::CONSTANT | DataTypes::STATIC_FIELD` and `ValueTypes::NUMBER`
(`language/operation/std/abs.cc:84-85`, `add.cc:25-26`, `29-30`, `int32.cc:25-26`, `write.cc:66-67`). -/
def numbers : ExpressionType := ⟨DataTypes.constant.union DataTypes.staticField, ValueTypes.number⟩

/-- `DataTypes::CONSTANT` and `ValueTypes::STRING`
(`language/operation/std/read.cc:70-71`, `write.cc:70-71`, `74-75`). -/
def text : ExpressionType := ⟨DataTypes.constant, ValueType.string.flag⟩

/-- The constructor of `Abs` (`language/operation/std/abs.cc:78-93`). -/
def absType : OperationType := ⟨[[numbers]], [numbers]⟩

/-- The constructor of `Add` (`language/operation/std/add.cc:19-38`). -/
def addType : OperationType := ⟨[[numbers], [numbers]], [numbers]⟩

/-- The constructor of `Int32` (`language/operation/std/int32.cc:19-34`). -/
def int32Type : OperationType :=
  ⟨[[numbers]], [⟨DataTypes.constant.union DataTypes.staticField, ValueType.int32.flag⟩]⟩

/-- The constructor of `Read` (`language/operation/std/read.cc:64-79`). -/
def readType : OperationType := ⟨[[text]], [⟨DataTypes.staticField, ValueTypes.number⟩]⟩

/-- The constructor of `Write` (`language/operation/std/write.cc:60-79`). -/
def writeType : OperationType := ⟨[[numbers], [text], [text]], []⟩

/-- `Read::expression_type` (`language/operation/std/read.cc:85-96`): the type of the first result, whatever the
arguments are. -/
def firstResult (t : OperationType) (_ : List ExpressionType) : Option ExpressionType := t.results[0]?

/-- `Operation::expression_type` (`language/operation/core/operation.cc:99-111`), which `Write` inherits. `none`: an
assertion fails. -/
def noResult (t : OperationType) (_ : List ExpressionType) : Option ExpressionType :=
  if t.results.isEmpty then some .undefined else none

/-- `operations` (`language/operation/std/operations.cc:33-47`), with the names that the constructors pass, looked up as
`Operations::has_operation` and `Operations::operation` do (`language/operation/core/operations.cc:39-53`). `execute` is
what the operations do. -/
def library {V : Type} (execute : Str → List V → Option (List V)) : Operations V := fun n =>
  [("abs".toList, (⟨absType.parameters, standardExpressionType absType 0, execute n⟩ : Operation V)),
   ("add".toList, ⟨addType.parameters, standardExpressionType addType 0, execute n⟩),
   ("int32".toList, ⟨int32Type.parameters, standardExpressionType int32Type 0, execute n⟩),
   ("read".toList, ⟨readType.parameters, firstResult readType, execute n⟩),
   ("write".toList, ⟨writeType.parameters, noResult writeType, execute n⟩)].lookup n

end Fern.Library
