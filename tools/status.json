{
 "C01": [
  "proved",
  "for Parse and ParseForce, every text, dialect value and step budget"
 ],
 "C17": [
  "proved",
  ""
 ],
 "C26": [
  "proved",
  ""
 ],
 "C27": [
  "partial",
  "false of the code; the negation is proved for every input that all dialects reject: the result is an empty list and no error"
 ],
 "C28": [
  "proved",
  ""
 ],
 "C37": [
  "proved",
  ""
 ],
 "C14": [
  "partial",
  "false of the code in two corner cases (leading newline; comment hiding newlines), both refuted by witnesses; the exact line is proved for every rejection, and that it equals the true line when neither case applies"
 ],
 "C15": [
  "proved",
  ""
 ],
 "C16": [
  "proved",
  ""
 ],
 "C18": [
  "proved",
  ""
 ],
 "C19": [
  "proved",
  ""
 ],
 "C20": [
  "partial",
  "false of the code for three comment shapes, refuted by witnesses; proved for all comments without these shapes. How every other text with comments is read is said by C57"
 ],
 "C21": [
  "proved",
  "one token with exactly that content for every quoted text without quotes and newlines inside; reported without the quotes; a nested quote loses a character (C21_nested_negation)"
 ],
 "C29": [
  "proved",
  ""
 ],
 "C30": [
  "proved",
  ""
 ],
 "C02": [
  "partial",
  "false of the code in general (see C03, C33, C34); proved for every text without an unclosed parenthesis whose script has no reference to a table with a schema, no index definition and no unnamed EXCLUDE followed by another entry at the start of a definition (C02_placed_partial)"
 ],
 "C04": [
  "proved",
  "both directions, and rejection of everything else"
 ],
 "C05": [
  "proved",
  "both directions, and rejection of everything else"
 ],
 "C06": [
  "proved",
  "both directions, and rejection of everything else"
 ],
 "C07": [
  "proved",
  ""
 ],
 "C08": [
  "proved",
  ""
 ],
 "C09": [
  "proved",
  ""
 ],
 "C11": [
  "proved",
  ""
 ],
 "C12": [
  "proved",
  "with the code's notion of BEGIN ... END; a nested CASE ... END ends the group early (witness)"
 ],
 "C13": [
  "proved",
  ""
 ],
 "C10": [
  "proved",
  "every list of tables meeting TableOK (Spec/Print.lean), in the three dialects"
 ],
 "C03": [
  "proved",
  "General theorem for any unclosed parenthesis whose completion would be a script, and the CHECK/DEFAULT case for all names, dialects and inner tokens; C03_iff: this is exactly when the syntax check never returns."
 ],
 "C23": [
  "proved",
  "for the scripts of C07-C09 (Faithful); outside them refuted by witnesses"
 ],
 "C24": [
  "proved",
  "for the scripts of C07-C09 (Faithful); outside them refuted by witnesses"
 ],
 "C25": [
  "proved",
  "any position in any script; an error is returned unless a parenthesis is left open"
 ],
 "C31": [
  "proved",
  "for the scripts of C07-C09 (Faithful); outside them refuted by witnesses"
 ],
 "C32": [
  "proved",
  "reported as written; the same as in Columns iff not quoted"
 ],
 "C35": [
  "proved",
  "any column of any script, any constraints before and after"
 ],
 "C36": [
  "proved",
  "column and table checks, defaults; adjacent commas are merged"
 ],
 "C33": [
  "proved",
  "any accepted script whose last table ends this way, and a family over all names"
 ],
 "C34": [
  "proved",
  "any accepted script whose last table ends this way, and a family over all names"
 ],
 "C39": [
  "proved",
  "Objects modelled with their fields and index arithmetic, proved to refine the state-passing model; a used object answers every further call as a new one does, for all reachable histories of completed calls."
 ],
 "C22": [
  "proved",
  "For texts equal up to letter case; C22_case assumes only that the numeric parser ignores letter case, which is proved for the model of strconv.ParseFloat (C22_case_go)."
 ],
 "C40": [
  "proved",
  "Token-level: the second text lexes to the renamed tokens of the first."
 ],
 "C38": [
  "partial",
  "false of the code: C38_negation; C38_again_iff says exactly for which scripts it fails, C38_again_partial proves it for all others, including that every token is kept"
 ],
 "C41": [
  "proved",
  "the limit applies to the number of iterations of each loop and the depth of each recursive function (the model's fuel)"
 ],
 "C42": [
  "proved",
  "no exclusions; DigitN and DigitM are not covered (see C24)"
 ],
 "C43": [
  "proved",
  "for ParseFloat as modelled in Model/Float.lean, and for any numeric parser meeting NumOK that rejects a lone dot"
 ],
 "C44": [
  "proved",
  "the format string of fmt.Sprintf is modelled as concatenation; line numbers in decimal"
 ],
 "C45": [
  "partial",
  "false of the code: C45_json_negation; C45_json_partial proves it for all texts without the words for infinity and NaN, C45_json_iff says exactly on which scripts (within the exclusions of C07-C09) it fails. The text encoding/json writes is modelled for C63."
 ],
 "C46": [
  "proved",
  "strconv.ParseFloat as modelled in Model/Float.lean; the literal grammar is in Spec/Number.lean"
 ],
 "C47": [
  "proved",
  "the three pairs of dialects; C47_sharp_negation and C47_check_not_null_negation show that the two exclusions for MySQL are needed"
 ],
 "C48": [
  "proved",
  "[]rune(ddl) and string(rune) as in the Go runtime, Model/Bytes.lean; strings.ToUpper changes ASCII letters only in the model; C48_invalid_negation shows that bytes that are not UTF-8 are lost"
 ],
 "C49": [
  "proved",
  "the rounding of strconv.ParseFloat is modelled as documented (nearest, ties to even) on the exact fraction, Model/Value.lean; literals of at most 2000 characters"
 ],
 "C50": [
  "partial",
  "false of the code: C50_documented_negation, C50_rejected_negation, C50_hangs_negation. C50_accepted_partial: accepted without the parts marked `only` and outside `Supported`; C50_returned_partial: also converted, without the parts marked `most`."
 ],
 "C51": [
  "proved",
  "for errors of the syntax check; errors of the lexer (unclosed quote or comment, stray character) are characterised in C29 and C44"
 ],
 "C52": [
  "proved",
  "for texts on which Parse returns; the cost of comparing and joining strings inside one operation is not counted"
 ],
 "C53": [
  "proved",
  "the syntax trees are generated from /repo by tools/gen_go.py and given meaning by lean/Verif/Go/Semantics.lean; that script, that interpreter and the library functions in it are trusted (DESIGN.md)"
 ],
 "C54": [
  "proved",
  "CaseMap: any map of characters that is the usual one on ASCII; how strings.ToUpper maps a string (character by character) is trusted"
 ],
 "C55": [
  "proved",
  "with the exceptions named in the statement, each shown to be real by a negation theorem"
 ],
 "C56": [
  "proved",
  "the tables need Faithful (exclusions of C07-C09) for each of the scripts compared; acceptance needs no exclusion"
 ],
 "C57": [
  "proved",
  "Lexed is a relation given by rules, independent of the lexer; both outcomes of Lex are characterised by it."
 ],
 "C58": ["proved", "conditions as in the statement (Spec/Tidy.lean); C58_image shows that the tables obtained are exactly those of C10. Some tokens with quotes inside quotes would survive rewriting too and are not covered."],
 "C59": ["proved", "an equivalence with Faithful; the condition on the names , and ) for scripts with index entries is part of the statement."],
 "C60": ["proved", "for every accepted script; together with C59 it says where the first wrong part of the result is."],
 "C61": ["proved", "Converter with slices in memory; the tokens of lexer and syntax check are appended one by one. The list of constraints seen that the validators keep is left out."],
 "C62": ["proved", "in the model of C61."],
 "C63": ["proved", "in the model of C61 and C62; encoding/json is modelled from the published Go 1.22 library; the text of a float64 is a parameter."],
 "C64": ["proved", "the columns concerned and what is reported of them are given in Spec/Reported.lean."],
 "C65": ["proved", "goroutines as trees of operations on a shared memory; objects of a call and read-only tables are outside that memory."],
 "C66": ["proved", "the error is defined in Props/ErrorExact.lean from the grammar and the lexical rules alone."]
}
