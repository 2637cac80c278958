{
 "M118": [
  "reserved_eq (new): the reserved words of the specification are a separate table, Spec/Words.lean; before, specification and model shared one table, and this edit changed both (see M123)"
 ],
 "M119": [
  "as M118 (see M124)"
 ],
 "M120": [
  "as M118 (see M125)"
 ],
 "M121": [
  "as M118, type names (see M126)"
 ],
 "M122": [
  "as M118, type names (see M127)"
 ],
 "M276": [
  "C62_force added: the slice that ParseForce returns is not nil either"
 ],
 "M278": [
  "none: append writes only behind the last cell of an array (the slices of a call are whole arrays, as C61_append shows for those of a result), where nothing is behind it; the edit changes no run."
 ],
 "M309": [
  "none: an empty array with room for more is not visible in any result; a helper's proof fails, the theorems would still hold"
 ],
 "M331": [
  "none: only the decision procedure next to the definition failed, which was not edited with it; done again as M355"
 ],
 "G084": [
  "nothing: the edit leaves the method the same function, and the proof goes through for the edited text as well"
 ]
}