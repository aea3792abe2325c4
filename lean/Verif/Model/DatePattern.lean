import Verif.Model.Types
/-!
# encoding/date.go: the special months and days
-/

namespace Bac

/-- encoding/date.go:13-15 -/
def isOddMonth (month : Int) : Bool := month == 13

/-- encoding/date.go:17-19 -/
def isEvenMonth (month : Int) : Bool := month == 14

/-- encoding/date.go:21-23 -/
def isLastDayOfMonth (day : Int) : Bool := day == 32

/-- encoding/date.go:25-27 -/
def isEvenDayOfMonth (day : Int) : Bool := day == 33

/-- encoding/date.go:29-31 -/
def isOddDayOfMonth (day : Int) : Bool := day == 32

end Bac
