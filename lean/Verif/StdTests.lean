import Verif.Model.Decl
import Verif.Model.Flag
import Verif.Model.Sniff

/-! What the functions of the Go standard library that are modelled make of values like those in its own tests, which
are not in /repo. These are checks of the model, not properties. -/

namespace Jargon

/-! ### unicode/utf8 (utf8_test.go) -/

/-- `utf8map`. -/
private def utf8map : List (Nat × Bytes) :=
  [(0x00, [0x00]), (0x01, [0x01]), (0x7E, [0x7E]), (0x7F, [0x7F]), (0x80, [0xC2, 0x80]), (0x81, [0xC2, 0x81]),
   (0xBF, [0xC2, 0xBF]), (0xC0, [0xC3, 0x80]), (0xFF, [0xC3, 0xBF]), (0x100, [0xC4, 0x80]), (0x7FF, [0xDF, 0xBF]),
   (0x400, [0xD0, 0x80]), (0x800, [0xE0, 0xA0, 0x80]), (0x801, [0xE0, 0xA0, 0x81]), (0x1000, [0xE1, 0x80, 0x80]),
   (0xD000, [0xED, 0x80, 0x80]), (0xD7FF, [0xED, 0x9F, 0xBF]), (0xE000, [0xEE, 0x80, 0x80]),
   (0xFFFE, [0xEF, 0xBF, 0xBE]), (0xFFFF, [0xEF, 0xBF, 0xBF]), (0x10000, [0xF0, 0x90, 0x80, 0x80]),
   (0x40000, [0xF1, 0x80, 0x80, 0x80]), (0x10FFFE, [0xF4, 0x8F, 0xBF, 0xBE]), (0x10FFFF, [0xF4, 0x8F, 0xBF, 0xBF]),
   (0xFFFD, [0xEF, 0xBF, 0xBD])]

-- also followed or preceded by other text, and with the last byte missing
example : ∀ p ∈ utf8map, encodeRune p.1 = p.2 ∧ decodeRune p.2 = (p.1, p.2.length) ∧
    decodeRune (p.2 ++ [0x00]) = (p.1, p.2.length) ∧ decodeLastRune p.2 = (p.1, p.2.length) ∧
    decodeLastRune (0x00 :: p.2) = (p.1, p.2.length) ∧
    decodeRune p.2.dropLast = (0xFFFD, if p.2.length ≤ 1 then 0 else 1) := by decide +kernel

-- `surrogateMap`, `invalidSequenceTests`, and runes that are not valid
example : ∀ s ∈ ([[0xED, 0xA0, 0x80], [0xED, 0xBF, 0xBF], [0xED, 0xA0, 0x80, 0x80], [0xED, 0xBF, 0xBF, 0x80], [0x80],
    [0xBF], [0xC0, 0x80], [0xC1, 0x81], [0xC2, 0x7F], [0xC2, 0xC0], [0xE0, 0x9F, 0xBF], [0xE0, 0xA0, 0x7F],
    [0xE0, 0x80, 0x80], [0xF0, 0x8F, 0xBF, 0xBF], [0xF0, 0x90, 0x80, 0x7F], [0xF0, 0x90, 0xC0, 0x80],
    [0xF4, 0x90, 0x80, 0x80], [0xF5, 0x80, 0x80, 0x80], [0xFF]] : List Bytes), decodeRune s = (0xFFFD, 1) := by
  decide +kernel

example : ∀ r ∈ [0xD800, 0xDFFF, 0x110000], encodeRune r = [0xEF, 0xBF, 0xBD] := by decide +kernel

example : decodeRune [] = (0xFFFD, 0) ∧ decodeLastRune [] = (0xFFFD, 0) ∧
    runes (str "aé€😀" ++ [0xFF, 0x61]) = [0x61, 0xE9, 0x20AC, 0x1F600, 0xFFFD, 0x61] := by decide +kernel

/-! ### strings (strings_test.go) -/

example : ∀ p ∈ [(str "", str ""), (str "  \t\r\n \t\t\r\r\n\n ", str ""), (str "abc", str "abc"),
    (str "\u2000\t\r\n x\t\t\r\r\ny\n \u3000", str "x\t\t\r\r\ny"),
    (str "1 \t\r\n2", str "1 \t\r\n2"), (str " x" ++ [0x80], str "x" ++ [0x80]), (str " x" ++ [0xC0], str "x" ++ [0xC0]),
    (str "x " ++ [0xC0, 0xC0] ++ str " ", str "x " ++ [0xC0, 0xC0]), (str "x ☺" ++ [0xC0] ++ str " ", str "x ☺" ++ [0xC0]),
    (str "x ☺ ", str "x ☺")], trimSpace p.1 = p.2 := by decide +kernel

example : replaceAll (str "a") (str "<>") (str "banana") = str "b<>n<>n<>" ∧
    replaceAll (str "ana") (str "<>") (str "banana") = str "b<>na" ∧
    replaceAll (str "an") (str "<>") (str "banana") = str "b<><>a" ∧
    replaceAll (str "ana") (str "<>") (str "banan") = str "b<>n" ∧
    replaceAll (str "z") (str "<>") (str "hello") = str "hello" ∧ replaceAll (str "a") (str "<>") [] = [] := by
  decide +kernel

example : splitByte 0x2C (str "a,b,c") = [str "a", str "b", str "c"] ∧ splitByte 0x2C [] = [[]] ∧
    splitByte 0x2C (str ",a,") = [[], str "a", []] ∧ splitSlash (str "/text/x") = [[], str "text", str "x"] ∧
    splitSlash [] = [[]] ∧ join (str "-") [] = [] ∧ join (str "-") [str "a"] = str "a" ∧
    join (str ", ") [str "a", [], str "c"] = str "a, , c" := by decide +kernel

/-! ### strconv (quote_test.go, atob_test.go, itoa_test.go) -/

/-- `strconv.IsPrint`, of the characters used here. -/
private def printable (r : Rune) : Bool := (0x20 ≤ r && r < 0x7F) || r == 0x263A || r == 0xFFFD

example : ∀ p ∈ [([0x07, 0x08, 0x0C, 0x0D, 0x0A, 0x09, 0x0B], "\"\\a\\b\\f\\r\\n\\t\\v\""), (str "\\", "\"\\\\\""),
    (str "abc" ++ [0xFF] ++ str "def", "\"abc\\xffdef\""), (str "☺", "\"☺\""), (encodeRune 0x10FFFF, "\"\\U0010ffff\""),
    ([0x04], "\"\\x04\""), (str "!\u00a0!\u2000!\u3000!", "\"!\\u00a0!\\u2000!\\u3000!\""), ([0x7F], "\"\\x7f\""),
    (str "\ufffd", "\"\ufffd\""), (str "'\"", "\"'\\\"\""), ([], "\"\"")],
    quote printable p.1 = str p.2 := by decide +kernel

example : parseBool [] = none ∧ parseBool (str "asdf") = none ∧ parseBool (str "tRUE") = none ∧
    (["0", "f", "F", "FALSE", "false", "False"].all fun s => parseBool (str s) == some false) = true ∧
    (["1", "t", "T", "TRUE", "true", "True"].all fun s => parseBool (str s) == some true) = true := by decide +kernel

example : itoa 0 = str "0" ∧ itoa 1 = str "1" ∧ itoa 9 = str "9" ∧ itoa 10 = str "10" ∧ itoa 12345678 = str "12345678" ∧
    itoa 100 = str "100" := by decide +kernel

/-! ### fmt and encoding of maps (fmt_test.go) -/

example : goSyntax printable [(str "b", str "2"), (str "a", str "1")] = str "map[string]string{\"a\":\"1\", \"b\":\"2\"}" ∧
    goSyntax printable [] = str "map[string]string{}" := by decide +kernel

/-! ### flag (flag_test.go) -/

private def set (s : String) : Bytes × FlagValue := (str s, .bool true)

example : parseFlags ([].map str) = .ok [] ∧ parseFlags (["-html", "--count", "x", "-lines"].map str) = .ok [set "html", set "count"] ∧
    parseFlags (["-html", "--", "-count"].map str) = .ok [set "html"] ∧ parseFlags (["-html", "-", "-count"].map str) = .ok [set "html"] ∧
    parseFlags (["-html=false", "-out", "-x", "--file=a=b"].map str) =
      .ok [(str "html", .bool false), (str "out", .string (str "-x")), (str "file", .string (str "a=b"))] ∧
    parseFlags (["-out="].map str) = .ok [(str "out", .string [])] := by
  refine ⟨?_, ?_, ?_, ?_, ?_, ?_⟩ <;> simp [parseFlags] <;> decide +kernel

/-! ### net/http (sniff_test.go) -/

example : ∀ s ∈ ["<HtMl><bOdY>blah blah blah</body></html>", "<HTML></HTML>", "   <!DOCTYPE HTML>...", "\r\n<html>...",
    "<!-- x", "<a href"], detectContentType (fun _ => []) (str s) = str "text/html; charset=utf-8" := by
  decide +kernel

example : detectContentType (fun _ => str "other") (str "\n<?xml!") = str "text/xml; charset=utf-8" ∧
    (["This is not HTML. It has ☃ though.", "<htmlx>", "<html", "x<html>", ""].all fun s =>
      detectContentType (fun _ => str "other") (str s) == str "other") = true := by decide +kernel

/-! ### html/template (html_test.go) -/

example : templateEscape (str "<b> \"foo%\" O'Reilly &bar; 1+1") =
    str "&lt;b&gt; &#34;foo%&#34; O&#39;Reilly &amp;bar; 1&#43;1" ∧ templateEscape [0] = str "\ufffd" := by decide +kernel

end Jargon
