import Verif.Model.Text

/-! # The same text with other line ends -/

namespace BladeX
namespace Spec

/-- `t'` is the text `t` with each line end written as `\n`, `\r\n` or `\r`; a lone `\r` must not be followed by a `\n`, with which it would make one line end. -/
inductive OtherEnds : Str → Str → Prop
  | nil : OtherEnds [] []
  | char (c : Char) (t t' : Str) : c ≠ '\n' → c ≠ '\r' → OtherEnds t t' → OtherEnds (c :: t) (c :: t')
  | lf (t t' : Str) : OtherEnds t t' → OtherEnds ('\n' :: t) ('\n' :: t')
  | crlf (t t' : Str) : OtherEnds t t' → OtherEnds ('\n' :: t) ('\r' :: '\n' :: t')
  | cr (t t' : Str) : t'.head? ≠ some '\n' → OtherEnds t t' → OtherEnds ('\n' :: t) ('\r' :: t')

/-- The three conventions in use. -/
def lineEnds : List Str := [['\n'], ['\r', '\n'], ['\r']]

end Spec
end BladeX
