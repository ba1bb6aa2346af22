import Verif.Model.Web

/-! Model of how net/http labels an answer without a Content-Type header: the web demo (web/main.go:37-93, 98-101)
sets none, so `Write` labels what it gets with `http.DetectContentType` (net/http sniff.go). -/

namespace Jargon

/-- net/http sniff.go `isWS`. -/
def sniffSpace (b : UInt8) : Bool := b == 0x09 || b == 0x0A || b == 0x0C || b == 0x0D || b == 0x20

/-- net/http sniff.go `sniffSignatures`: those of type `htmlSig`, which come first. -/
def htmlSigs : List Bytes :=
  [str "<!DOCTYPE HTML", str "<HTML", str "<HEAD", str "<SCRIPT", str "<IFRAME", str "<H1", str "<DIV", str "<FONT",
   str "<TABLE", str "<A", str "<STYLE", str "<TITLE", str "<B", str "<BODY", str "<BR", str "<P", str "<!--"]

/-- net/http sniff.go `htmlSig.match`, the loop: a capital letter stands for itself in either case. -/
def htmlSigMatch : Bytes → Bytes → Bool
  | [], b :: _ => b == 0x20 || b == 0x3E
  | [], [] => false
  | _ :: _, [] => false
  | s :: sig, b :: data =>
    (if 0x41 ≤ s ∧ s ≤ 0x5A then b &&& 0xDF else b) == s && htmlSigMatch sig data

/-- net/http sniff.go `DetectContentType`. The signatures after those of HTML and XML, all of which are for other
types, are gathered in `other`. -/
def detectContentType (other : Bytes → Bytes) (data : Bytes) : Bytes :=
  let data := data.take 512
  let rest := data.dropWhile sniffSpace
  if htmlSigs.any fun sig => htmlSigMatch sig rest then str "text/html; charset=utf-8"
  else if (str "<?xml").isPrefixOf rest then str "text/xml; charset=utf-8"
  else other data

end Jargon
