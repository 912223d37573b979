/-! # What Shift JIS does not keep -/

namespace Verif.Spec

/-- The WHATWG Shift_JIS encoder gives these three chars the codes of other chars: steps 5 to 7
of https://encoding.spec.whatwg.org/#shift_jis-encoder. -/
def jisKept (c : Char) : Char :=
  if c = '¥' then '\\'
  else if c = '‾' then '~'
  else if c = '−' then '－'
  else c

end Verif.Spec
