import Verif.Model.XlsStream

/-! # Model of `IsProtected`, `/repo/xls/xls.go:48-50` -/

namespace Grate.Xls

/-- `WorkBook.IsProtected`: the field `prot` (`/repo/xls/xls.go:31`), which no code assigns; its zero value is false. -/
def Book.isProtected (_ : Book) : Bool := false

end Grate.Xls
