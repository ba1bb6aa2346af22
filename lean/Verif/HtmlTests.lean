import Verif.Model.HtmlReader

/-! What the HTML reader makes of texts like those in the tests of golang.org/x/net/html (token_test.go and
escape_test.go, which are not in /repo). These are checks of the model of that package, not properties. -/

namespace Jargon

attribute [local instance] sampleReader

/-- The texts of the tokens. -/
private def shows (doc : String) : List Bytes := (htmlTokens (str doc)).map HTok.string

/-! ### Text that is no tag -/

example : shows "" = [] ∧ shows "foo  bar" = [str "foo  bar"] ∧ shows "<" = [str "&lt;"] ∧ shows "</" = [str "&lt;/"] ∧
    shows "</>" = [str "<!---->"] ∧ shows "a</>b" = [str "a", str "<!---->", str "b"] ∧
    shows "</ >" = [str "<!-- -->"] ∧ shows "</." = [str "<!--.-->"] ∧ shows "</.>" = [str "<!--.-->"] ∧
    shows "a < b" = [str "a &lt; b"] ∧ shows "<.>" = [str "&lt;.&gt;"] ∧
    shows "a<<<b>>>c" = [str "a&lt;&lt;", str "<b>", str "&gt;&gt;c"] ∧
    shows "if x<0 and y < 0 then x*y>0" = [str "if x&lt;0 and y &lt; 0 then x*y&gt;0"] ∧
    shows "<<p>" = [str "&lt;", str "<p>"] := by decide +kernel

/-! ### Tags -/

example : shows "<a>b<c/>d</e>" = [str "<a>", str "b", str "<c/>", str "d", str "</e>"] ∧
    shows "<a" = [] ∧ shows "<a >" = [str "<a>"] ∧ shows "a<b" = [str "a"] ∧ shows "<a><b" = [str "<a>"] ∧
    shows "<a x" = [] ∧ shows "<p id" = [] ∧ shows "<p id=" = [] ∧ shows "<p id=>" = [str "<p id=\"\">"] ∧
    shows "<p id=0" = [] ∧ shows "<p id=0</p>" = [str "<p id=\"0&lt;/p\">"] ∧ shows "<p id=\"0</p>" = [] ∧
    shows "<p id=\"0\"</p>" = [str "<p id=\"0\" <=\"\" p=\"\">"] ∧ shows "<p></p id" = [str "<p>"] ∧
    shows "<p</p>" = [str "<p< p=\"\">"] ∧ shows "<p </p>" = [str "<p <=\"\" p=\"\">"] := by decide +kernel

example : shows "<p id=''>" = [str "<p id=\"\">"] ∧ shows "<p id='\"'>" = [str "<p id=\"&#34;\">"] ∧
    shows "<p id=xyz>" = [str "<p id=\"xyz\">"] ∧ shows "<p id=a\"1>" = [str "<p id=\"a&#34;1\">"] ∧
    shows "<p id=can't><p id=won't>" = [str "<p id=\"can&#39;t\">", str "<p id=\"won&#39;t\">"] ∧
    shows "<A HREF=\"X\" Id = b C>" = [str "<a href=\"X\" id=\"b\" c=\"\">"] ∧
    shows "<p a/b>" = [str "<p a=\"\" b=\"\">"] ∧ shows "<p a=b/>" = [str "<p a=\"b/\"/>"] ∧
    shows "<p a=\"b\"/>" = [str "<p a=\"b\"/>"] ∧ shows "<p a/>" = [str "<p a=\"\"/>"] ∧
    shows "<p / >" = [str "<p>"] ∧ shows "</P A=b>" = [str "</p>"] := by decide +kernel

/-! ### Raw text -/

example : shows "<script><a></b></script>" = [str "<script>", str "&lt;a&gt;&lt;/b&gt;", str "</script>"] ∧
    shows "<SCRIPT>a</SCR" = [str "<script>", str "a&lt;/SCR"] ∧
    shows "<SCRIPT>a</SCR ipt>" = [str "<script>", str "a&lt;/SCR ipt&gt;"] ∧
    shows "<SCRIPT>a</SCRipt" = [str "<script>", str "a&lt;/SCRipt"] ∧
    shows "<SCRIPT>a</SCRiptx" = [str "<script>", str "a&lt;/SCRiptx"] ∧
    shows "<SCRIPT>a</SCRipt " = [str "<script>", str "a"] ∧
    shows "<SCRIPT>a</SCRipt>" = [str "<script>", str "a", str "</script>"] ∧
    shows "<SCRIPT>a</SCRipt/>" = [str "<script>", str "a", str "</script>"] ∧
    shows "<SCRIPT>a</SCRipt<script>" = [str "<script>", str "a&lt;/SCRipt&lt;script&gt;"] ∧
    shows "<SCRIPT>a</SCRipt</script>" = [str "<script>", str "a&lt;/SCRipt", str "</script>"] ∧
    shows "<script>a</style>" = [str "<script>", str "a&lt;/style&gt;"] := by decide +kernel

example : shows "<style>&amp;" = [str "<style>", str "&amp;amp;"] ∧
    shows "<textarea><div></textarea>" = [str "<textarea>", str "&lt;div&gt;", str "</textarea>"] ∧
    shows "<title><b>K&amp;R C</b></title>" =
      [str "<title>", str "&lt;b&gt;K&amp;R C&lt;/b&gt;", str "</title>"] ∧
    shows "<plaintext>a</plaintext>" = [str "<plaintext>", str "a&lt;/plaintext&gt;"] ∧
    shows "<script><!--<script></script>-->x</script>y" =
      [str "<script>", str "&lt;!--&lt;script&gt;&lt;/script&gt;--&gt;x", str "</script>", str "y"] ∧
    shows "<script><!--</script>y" = [str "<script>", str "&lt;!--", str "</script>", str "y"] := by decide +kernel

/-! ### Comments and doctypes -/

example : shows "abc<b><!-- skipme --></b>def" =
      [str "abc", str "<b>", str "<!-- skipme -->", str "</b>", str "def"] ∧
    shows "a<!-->z" = [str "a", str "<!---->", str "z"] ∧ shows "a<!--->z" = [str "a", str "<!---->", str "z"] ∧
    shows "a<!--x>-->z" = [str "a", str "<!--x>-->", str "z"] ∧
    shows "a<!--x->-->z" = [str "a", str "<!--x->-->", str "z"] ∧ shows "a<!>z" = [str "a", str "<!---->", str "z"] ∧
    shows "a<!->z" = [str "a", str "<!----->", str "z"] ∧ shows "a<!---<>z" = [str "a", str "<!---<>z-->"] ∧
    shows "a<!--z" = [str "a", str "<!--z-->"] ∧ shows "a<!--z-" = [str "a", str "<!--z-->"] ∧
    shows "a<!--z--" = [str "a", str "<!--z-->"] ∧ shows "a<!--z---" = [str "a", str "<!--z--->"] ∧
    shows "a<!--z--!>b" = [str "a", str "<!--z-->", str "b"] ∧ shows "<?xml?>" = [str "<!--?xml?-->"] := by
  decide +kernel

example : shows "<!DOCTYPE html>" = [str "<!DOCTYPE html>"] ∧ shows "<!doctypehtml>" = [str "<!DOCTYPE html>"] ∧
    shows "<!doctype  html>" = [str "<!DOCTYPE html>"] ∧
    shows "<!DOCUMENT html>" = [str "<!--DOCUMENT html-->"] ∧ shows "<!DOCtype" = [str "<!DOCTYPE >"] := by
  decide +kernel

/-! ### Line ends and character references -/

example : ∀ p ∈ [("Mac\rDOS\r\nUnix\n", "Mac\nDOS\nUnix\n"), ("", ""), ("\n", "\n"), ("\n\r", "\n\n"), ("\r", "\n"),
    ("\r\n", "\n"), ("\r\n\n", "\n\n"), ("\r\n\r", "\n\n"), ("\r\n\r\n", "\n\n"), ("\r\r", "\n\n"), ("\r\r\n", "\n\n"),
    ("\r\r\n\n", "\n\n\n"), ("\r\r\r\n", "\n\n\n"), ("\r \n", "\n \n"), ("xyz", "xyz")],
    convertNewlines (str p.1) = str p.2 := by decide +kernel

example : ∀ p ∈ [("A\ttext\nstring", "A\ttext\nstring"), ("&amp; &gt; &lt;", "& > <"), ("&amp &amp", "& &"),
    ("text &acE; blah", "text ∾̳ blah"), ("Delta = &#916; ", "Delta = Δ "),
    ("Lambda = &#x3bb; = &#X3Bb ", "Lambda = λ = λ "), ("&# &#x &#128;43 &not = &#169f = &#xa9", "&# &#x €43 ¬ = ©f = ©"),
    ("Footnote&#x87;", "Footnote‡"), ("&", "&"), ("text &test", "text &test"), ("text &#", "text &#"),
    ("&notit; &notin;", "¬it; ∉"), ("&#0;&#xD800;&#x110000;", "���"), ("&;", "&;")],
    cookText (str p.1) = str p.2 := by decide +kernel

example : cookValue (str "?a=b&not=c&notit&amp=&lt;&amp") = str "?a=b&not=c&notit&amp=<&" := by decide +kernel

end Jargon
