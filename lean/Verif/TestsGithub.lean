import Verif.ThmGithubTime

/-!
# The page of /repo/github/github_test.go run through the model (a test, not a proof)
-/

namespace Gpgpdump.TestsGithub

/-- github_test.go `inputText2` -/
def page : String := "[
  {
    \"id\": 1070011,
    \"primary_key_id\": null,
    \"key_id\": \"3B460BA9A59048C9\",
    \"raw_key\": \"-----BEGIN PGP PUBLIC KEY BLOCK-----\\r\\n\\r\\nmDMEX5e8IxYJKwYBBAHaRw8BAQdAsbKSTsqzMQSUdWv/UQBfYf+HD9/+dzCT+zVN\\r\\nIvZRQ/e0L1NwaWVnZWwgKGdpdGh1YikgPHNwaWVnZWwuaW0uc3BpZWdlbEBnbWFp\\r\\nbC5jb20+iJAEExYIADgWIQRK8EwUs6FchRaOGmc7RguppZBIyQUCX5e8IwIbAwUL\\r\\nCQgHAgYVCgkICwIEFgIDAQIeAQIXgAAKCRA7RguppZBIyVTWAPoChzM/FBkpqBVl\\r\\nUv2v3cE3UIfPENm5qWegUmmBg3yTLgD+MXyI6zter+DDUT9e0UWeaOZrsJvCpBUh\\r\\n9eLxUMpiKg64OARfl7wjEgorBgEEAZdVAQUBAQdALSF4rszFFAhisXD/7ZKytW1M\\r\\nLSWGPxW4sLNezkhKfX0DAQgHiHgEGBYIACAWIQRK8EwUs6FchRaOGmc7RguppZBI\\r\\nyQUCX5e8IwIbDAAKCRA7RguppZBIyUzLAQCDNMwKtq1zR2KHm9F0Fvp66vv2grX1\\r\\nj0TRb5sEayG9YQEA5ap7JltKc4iVThzu7bY1D+sZ3KbXetecf+QQv6YrwAE=\\r\\n=n3Jr\\r\\n-----END PGP PUBLIC KEY BLOCK-----\\r\\n\",
    \"public_key\": \"xjMEX5e8IxYJKwYBBAHaRw8BAQdAsbKSTsqzMQSUdWv/UQBfYf+HD9/+dzCT+zVNIvZRQ/c=\",
    \"emails\": [
      {
        \"email\": \"usrename@example.com\",
        \"verified\": true
      }
    ],
    \"subkeys\": [
      {
        \"id\": 1070012,
        \"primary_key_id\": 1070011,
        \"key_id\": \"8EF2411709BAC3A4\",
        \"raw_key\": null,
        \"public_key\": \"zjgEX5e8IxIKKwYBBAGXVQEFAQEHQC0heK7MxRQIYrFw/+2SsrVtTC0lhj8VuLCzXs5ISn19AwEIBw==\",
        \"emails\": [

        ],
        \"subkeys\": [

        ],
        \"can_sign\": false,
        \"can_encrypt_comms\": true,
        \"can_encrypt_storage\": true,
        \"can_certify\": false,
        \"created_at\": \"2020-11-09T06:29:59.000Z\",
        \"expires_at\": null
      }
    ],
    \"can_sign\": true,
    \"can_encrypt_comms\": false,
    \"can_encrypt_storage\": false,
    \"can_certify\": true,
    \"created_at\": \"2020-11-09T06:29:59.000Z\",
    \"expires_at\": null
  },
  {
    \"id\": 1043333,
    \"primary_key_id\": null,
    \"key_id\": \"B4DA3BAE7E20B81C\",
    \"raw_key\": null,
    \"public_key\": null,
    \"emails\": [
    ],
    \"subkeys\": [
    ],
    \"can_sign\": true,
    \"can_encrypt_comms\": false,
    \"can_encrypt_storage\": false,
    \"can_certify\": true,
    \"created_at\": \"2020-10-13T22:07:23.000Z\",
    \"expires_at\": null
  }
]
"

/-- its first `raw_key` -/
def text : String := "-----BEGIN PGP PUBLIC KEY BLOCK-----\r\n\r\nmDMEX5e8IxYJKwYBBAHaRw8BAQdAsbKSTsqzMQSUdWv/UQBfYf+HD9/+dzCT+zVN\r\nIvZRQ/e0L1NwaWVnZWwgKGdpdGh1YikgPHNwaWVnZWwuaW0uc3BpZWdlbEBnbWFp\r\nbC5jb20+iJAEExYIADgWIQRK8EwUs6FchRaOGmc7RguppZBIyQUCX5e8IwIbAwUL\r\nCQgHAgYVCgkICwIEFgIDAQIeAQIXgAAKCRA7RguppZBIyVTWAPoChzM/FBkpqBVl\r\nUv2v3cE3UIfPENm5qWegUmmBg3yTLgD+MXyI6zter+DDUT9e0UWeaOZrsJvCpBUh\r\n9eLxUMpiKg64OARfl7wjEgorBgEEAZdVAQUBAQdALSF4rszFFAhisXD/7ZKytW1M\r\nLSWGPxW4sLNezkhKfX0DAQgHiHgEGBYIACAWIQRK8EwUs6FchRaOGmc7RguppZBI\r\nyQUCX5e8IwIbDAAKCRA7RguppZBIyUzLAQCDNMwKtq1zR2KHm9F0Fvp66vv2grX1\r\nj0TRb5sEayG9YQEA5ap7JltKc4iVThzu7bY1D+sZ3KbXetecf+QQv6YrwAE=\r\n=n3Jr\r\n-----END PGP PUBLIC KEY BLOCK-----\r\n"

def server : GHServer := apiServer (.error .noKey) fun _ => .ok (asciiBytes page.toList)

def get (id : String) : GHRes × List GHReq := getKey ⟨Spec.GH.asciiLower, Spec.GH.asciiLower⟩ server id.toList 3

/-! github_test.go `TestGetKey` -/

#guard get "3B460BA9A59048C9" = (.ok (asciiBytes text.toList), [.page 1])
#guard get "0x3B460BA9A59048C9" = (.ok (asciiBytes text.toList), [.page 1])
#guard get "B4DA3BAE7E20B81C" = (.err .noKey, [.page 1])
#guard get "0x00" = (.err .noKey, [.page 1])

end Gpgpdump.TestsGithub
