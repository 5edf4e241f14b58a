import Verif.Model.Scalar

/-!
# Constants

Model of src/constants.cpp.
-/

namespace Zcm

variable {α : Type} [Add α] [Sub α] [Mul α] [Div α] [Neg α] [FloatOps α] [Libm α]
  [LT α] [DecidableLT α] [LE α] [DecidableLE α] [BEq α]

/-- `epsilon()` src/constants.cpp:4-7; `std::numeric_limits<float>::epsilon()` is 2⁻²³ -/
def Const.epsilon : α := lit (1 / 8388608)

/-- `zero()` src/constants.cpp:9-12 -/
def Const.zero : α := lit 0

/-- `one()` src/constants.cpp:14-17 -/
def Const.one : α := lit 1

/-- `pi()` src/constants.cpp:19-22 -/
def Const.pi : α := lit 3.14159265358979323846264338327950288

/-- `two_pi()` src/constants.cpp:24-27 -/
def Const.two_pi : α := lit 6.28318530717958647692528676655900576

/-- `root_pi()` src/constants.cpp:29-32 -/
def Const.root_pi : α := lit 1.772453850905516027

/-- `half_pi()` src/constants.cpp:34-37 -/
def Const.half_pi : α := lit 1.57079632679489661923132169163975144

/-- `three_over_two_pi()` src/constants.cpp:39-42 -/
def Const.three_over_two_pi : α := lit 4.71238898038468985769396507491925432

/-- `quarter_pi()` src/constants.cpp:44-47 -/
def Const.quarter_pi : α := lit 0.785398163397448309615660845819875721

/-- `one_over_pi()` src/constants.cpp:49-52 -/
def Const.one_over_pi : α := lit 0.318309886183790671537767526745028724

/-- `one_over_two_pi()` src/constants.cpp:54-57 -/
def Const.one_over_two_pi : α := lit 0.159154943091895335768883763372514362

/-- `two_over_pi()` src/constants.cpp:59-62 -/
def Const.two_over_pi : α := lit 0.636619772367581343075535053490057448

/-- `four_over_pi()` src/constants.cpp:64-67 -/
def Const.four_over_pi : α := lit 1.273239544735162686151070106980114898

/-- `two_over_root_pi()` src/constants.cpp:69-72 -/
def Const.two_over_root_pi : α := lit 1.12837916709551257389615890312154517

/-- `one_over_root_two()` src/constants.cpp:74-77 -/
def Const.one_over_root_two : α := lit 0.707106781186547524400844362104849039

/-- `root_half_pi()` src/constants.cpp:79-82 -/
def Const.root_half_pi : α := lit 1.253314137315500251

/-- `root_two_pi()` src/constants.cpp:84-87 -/
def Const.root_two_pi : α := lit 2.506628274631000502

/-- `root_ln_four()` src/constants.cpp:89-92 -/
def Const.root_ln_four : α := lit 1.17741002251547469

/-- `e()` src/constants.cpp:94-97 -/
def Const.e : α := lit 2.71828182845904523536

/-- `euler()` src/constants.cpp:99-102 -/
def Const.euler : α := lit 0.577215664901532860606

/-- `root_two()` src/constants.cpp:104-107 -/
def Const.root_two : α := lit 1.41421356237309504880168872420969808

/-- `root_three()` src/constants.cpp:109-112 -/
def Const.root_three : α := lit 1.73205080756887729352744634150587236

/-- `root_five()` src/constants.cpp:114-117 -/
def Const.root_five : α := lit 2.23606797749978969640917366873127623

/-- `ln_two()` src/constants.cpp:119-122 -/
def Const.ln_two : α := lit 0.693147180559945309417232121458176568

/-- `ln_ten()` src/constants.cpp:124-127 -/
def Const.ln_ten : α := lit 2.30258509299404568401799145468436421

/-- `ln_ln_two()` src/constants.cpp:129-132 -/
def Const.ln_ln_two : α := -(lit 0.3665129205816643)

/-- `third()` src/constants.cpp:134-137 -/
def Const.third : α := lit 0.3333333333333333333333333333333333333333

/-- `two_thirds()` src/constants.cpp:139-142 -/
def Const.two_thirds : α := lit 0.666666666666666666666666666666666666667

/-- `golden_ratio()` src/constants.cpp:144-147 -/
def Const.golden_ratio : α := lit 1.61803398874989484820458683436563811

end Zcm
