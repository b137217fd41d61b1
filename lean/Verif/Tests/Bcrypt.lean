import Verif.Tests.Support

/-! # bcrypt_pbkdf computed

The first entry of the table of derived keys, with which tests/privkey_encrypted.rs is replayed in Tests/Keys.lean, computed by the
definitions of Concrete/Bcrypt.lean. -/

namespace Ssh.Tests

#guard (table.head?.map fun ((pass, salt, rounds), out) => Concrete.bcryptPbkdf pass salt rounds == some out) == some true

#guard Concrete.bcryptPbkdf "" [1] 1 == none
#guard Concrete.bcryptPbkdf "test" [] 1 == none
#guard Concrete.bcryptPbkdf "test" [1] 0 == none

end Ssh.Tests
