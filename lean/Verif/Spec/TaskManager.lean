import Verif.Model.TaskManager

/-! Vocabulary used in the statements about the task manager. -/
namespace GridPACK.TaskManager

/-- Processes that take part in a request. -/
def requesters : Op → List Nat
  | .next p => [p]
  | .groupNext ms => ms
  | _ => []

/-- How far an operation can advance the counter when the pool has `n` tasks. -/
def cost (n : Int) : Op → Int
  | .set _ => 0
  | .next _ => 1
  | .groupNext _ => 1
  | .cancel _ => n

/-- Is this a collective `set`? -/
def isSet : Op → Bool
  | .set _ => true
  | _ => false

end GridPACK.TaskManager
