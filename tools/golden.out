/repo/python/testdata/aes/1.out: This is some test data
/repo/python/testdata/aes/2.out: This is some test data
/repo/python/testdata/rsa/1.out: This is some test data
/repo/python/testdata/rsa/2.out: This is some test data
/repo/python/testdata/aes-crypted/1.out: This is some test data
/repo/python/testdata/aes-crypted/2.out: This is some test data
/repo/python/testdata/hmac/1.out: true, other data false
/repo/python/testdata/hmac/2.out: true, other data false
/repo/python/testdata/hmac/1.out: true, other data false
/repo/python/testdata/hmac/2.out: true, other data false
/repo/python/testdata/dsa/1.out: true, other data false
/repo/python/testdata/dsa/2.out: true, other data false
/repo/python/testdata/dsa/1.out: true, other data false
/repo/python/testdata/dsa/2.out: true, other data false
/repo/python/testdata/rsa-sign/1.out: true, other data false
/repo/python/testdata/rsa-sign/2.out: true, other data false
/repo/python/testdata/rsa-sign/1.out: true, other data false
/repo/python/testdata/rsa-sign/2.out: true, other data false
/repo/python/testdata/dsa.public: load Verif.PyErr.keyczarError
/repo/python/testdata/dsa.public/1.out: true, other data false
/repo/python/testdata/dsa.public/2.out: true, other data false
/repo/python/testdata/rsa-sign.public: load Verif.PyErr.keyczarError
/repo/python/testdata/rsa-sign.public/1.out: true, other data false
/repo/python/testdata/rsa-sign.public/2.out: true, other data false
/repo/python/jtestdata/aes/1.out: This is some test data
/repo/python/jtestdata/aes/2.out: This is some test data
/repo/python/jtestdata/rsa/1.out: This is some test data
/repo/python/jtestdata/rsa/2.out: This is some test data
/repo/python/jtestdata/aes-crypted/1.out: This is some test data
/repo/python/jtestdata/aes-crypted/2.out: This is some test data
/repo/python/jtestdata/hmac/1.out: true, other data false
/repo/python/jtestdata/hmac/2.out: true, other data false
/repo/python/jtestdata/hmac/1.out: true, other data false
/repo/python/jtestdata/hmac/2.out: true, other data false
/repo/python/jtestdata/dsa/1.out: true, other data false
/repo/python/jtestdata/dsa/2.out: true, other data false
/repo/python/jtestdata/dsa/1.out: true, other data false
/repo/python/jtestdata/dsa/2.out: true, other data false
/repo/python/jtestdata/rsa-sign/1.out: true, other data false
/repo/python/jtestdata/rsa-sign/2.out: true, other data false
/repo/python/jtestdata/rsa-sign/1.out: true, other data false
/repo/python/jtestdata/rsa-sign/2.out: true, other data false
/repo/python/jtestdata/dsa.public: load Verif.PyErr.keyczarError
/repo/python/jtestdata/dsa.public/1.out: true, other data false
/repo/python/jtestdata/dsa.public/2.out: true, other data false
/repo/python/jtestdata/rsa-sign.public: load Verif.PyErr.keyczarError
/repo/python/jtestdata/rsa-sign.public/1.out: true, other data false
/repo/python/jtestdata/rsa-sign.public/2.out: true, other data false
/repo/java/code/pytestdata/aes/1.out: error Verif.PyErr.badVersion 1
/repo/java/code/pytestdata/aes/2.out: error Verif.PyErr.badVersion 1
/repo/java/code/pytestdata/rsa: load Verif.PyErr.keyczarError
/repo/java/code/pytestdata/aes-crypted: load Verif.PyErr.badVersion 1
/repo/java/code/pytestdata/hmac/1.out: error Verif.PyErr.badVersion 1, other data error Verif.PyErr.badVersion 1
/repo/java/code/pytestdata/hmac/2.out: error Verif.PyErr.badVersion 1, other data error Verif.PyErr.badVersion 1
/repo/java/code/pytestdata/hmac/1.out: error Verif.PyErr.badVersion 1, other data error Verif.PyErr.badVersion 1
/repo/java/code/pytestdata/hmac/2.out: error Verif.PyErr.badVersion 1, other data error Verif.PyErr.badVersion 1
/repo/java/code/pytestdata/dsa: load Verif.PyErr.keyczarError
/repo/java/code/pytestdata/dsa: load Verif.PyErr.keyczarError
/repo/java/code/pytestdata/rsa-sign: load Verif.PyErr.keyczarError
/repo/java/code/pytestdata/rsa-sign: load Verif.PyErr.keyczarError
/repo/java/code/testdata/aes/1.out: This is some test data
/repo/java/code/testdata/aes/2.out: This is some test data
/repo/java/code/testdata/rsa/1.out: This is some test data
/repo/java/code/testdata/rsa/2.out: This is some test data
/repo/java/code/testdata/aes-crypted/1.out: This is some test data
/repo/java/code/testdata/aes-crypted/2.out: This is some test data
/repo/java/code/testdata/hmac/1.out: true, other data false
/repo/java/code/testdata/hmac/2.out: true, other data false
/repo/java/code/testdata/hmac/1.out: true, other data false
/repo/java/code/testdata/hmac/2.out: true, other data false
/repo/java/code/testdata/dsa/1.out: true, other data false
/repo/java/code/testdata/dsa/2.out: true, other data false
/repo/java/code/testdata/dsa/1.out: true, other data false
/repo/java/code/testdata/dsa/2.out: true, other data false
/repo/java/code/testdata/rsa-sign/1.out: true, other data false
/repo/java/code/testdata/rsa-sign/2.out: true, other data false
/repo/java/code/testdata/rsa-sign/1.out: true, other data false
/repo/java/code/testdata/rsa-sign/2.out: true, other data false
/repo/java/code/testdata/dsa.public: load Verif.PyErr.keyczarError
/repo/java/code/testdata/dsa.public/1.out: true, other data false
/repo/java/code/testdata/dsa.public/2.out: true, other data false
/repo/java/code/testdata/rsa-sign.public: load Verif.PyErr.keyczarError
/repo/java/code/testdata/rsa-sign.public/1.out: true, other data false
/repo/java/code/testdata/rsa-sign.public/2.out: true, other data false
/repo/cpp/src/keyczar/data/aes/1.out: This is some test data
/repo/cpp/src/keyczar/data/aes/2.out: This is some test data
/repo/cpp/src/keyczar/data/rsa/1.out: This is some test data
/repo/cpp/src/keyczar/data/rsa/2.out: This is some test data
/repo/cpp/src/keyczar/data/aes-crypted/1.out: This is some test data
/repo/cpp/src/keyczar/data/aes-crypted/2.out: This is some test data
/repo/cpp/src/keyczar/data/hmac: load Verif.PyErr.keyczarError
/repo/cpp/src/keyczar/data/hmac: load Verif.PyErr.keyczarError
/repo/cpp/src/keyczar/data/dsa/1.out: false, other data false
/repo/cpp/src/keyczar/data/dsa/2.out: false, other data false
/repo/cpp/src/keyczar/data/dsa/1.out: false, other data false
/repo/cpp/src/keyczar/data/dsa/2.out: false, other data false
/repo/cpp/src/keyczar/data/rsa-sign/1.out: false, other data false
/repo/cpp/src/keyczar/data/rsa-sign/2.out: false, other data false
/repo/cpp/src/keyczar/data/rsa-sign/1.out: false, other data false
/repo/cpp/src/keyczar/data/rsa-sign/2.out: false, other data false
/repo/cpp/src/keyczar/data/dsa.public: load Verif.PyErr.keyczarError
/repo/cpp/src/keyczar/data/dsa.public/1.out: false, other data false
/repo/cpp/src/keyczar/data/dsa.public/2.out: false, other data false
/repo/cpp/src/keyczar/data/rsa-sign.public: load Verif.PyErr.keyczarError
/repo/cpp/src/keyczar/data/rsa-sign.public/1.out: false, other data false
/repo/cpp/src/keyczar/data/rsa-sign.public/2.out: false, other data false
/repo/cpp/src/keyczar/data/06b/aes/1.out: This is some test data
/repo/cpp/src/keyczar/data/06b/aes/2.out: This is some test data
/repo/cpp/src/keyczar/data/06b/rsa/1.out: This is some test data
/repo/cpp/src/keyczar/data/06b/rsa/2.out: This is some test data
/repo/cpp/src/keyczar/data/06b/aes-crypted/1.out: This is some test data
/repo/cpp/src/keyczar/data/06b/aes-crypted/2.out: This is some test data
/repo/cpp/src/keyczar/data/06b/hmac/1.out: true, other data false
/repo/cpp/src/keyczar/data/06b/hmac/2.out: true, other data false
/repo/cpp/src/keyczar/data/06b/hmac/1.out: true, other data false
/repo/cpp/src/keyczar/data/06b/hmac/2.out: true, other data false
/repo/cpp/src/keyczar/data/06b/dsa/1.out: true, other data false
/repo/cpp/src/keyczar/data/06b/dsa/2.out: true, other data false
/repo/cpp/src/keyczar/data/06b/dsa/1.out: true, other data false
/repo/cpp/src/keyczar/data/06b/dsa/2.out: true, other data false
/repo/cpp/src/keyczar/data/06b/rsa-sign/1.out: true, other data false
/repo/cpp/src/keyczar/data/06b/rsa-sign/2.out: true, other data false
/repo/cpp/src/keyczar/data/06b/rsa-sign/1.out: true, other data false
/repo/cpp/src/keyczar/data/06b/rsa-sign/2.out: true, other data false
/repo/cpp/src/keyczar/data/06b/dsa.public: load Verif.PyErr.keyczarError
/repo/cpp/src/keyczar/data/06b/dsa.public/1.out: true, other data false
/repo/cpp/src/keyczar/data/06b/dsa.public/2.out: true, other data false
/repo/cpp/src/keyczar/data/06b/rsa-sign.public: load Verif.PyErr.keyczarError
/repo/cpp/src/keyczar/data/06b/rsa-sign.public/1.out: true, other data false
/repo/cpp/src/keyczar/data/06b/rsa-sign.public/2.out: true, other data false
/repo/java/code/testdata/aes-noprimary/1.out: This is some test data
/repo/java/code/testdata/crosscomp/aes/1.out: Some text to encrypt
/repo/java/code/testdata/crosscomp/aes/2.out: This is not a test, this is a real string
/repo/java/code/testdata/crosscomp/rsa/1.out: This is not a test, this is a real string
/repo/java/code/testdata/crosscomp/hmac/1.out: true, other data false
/repo/java/code/testdata/crosscomp/hmac/1.out: true, other data false
/repo/java/code/testdata/crosscomp/dsa/1.out: true, other data false
/repo/java/code/testdata/crosscomp/dsa/1.out: true, other data false
session: This is some test data
signed session: This is some test data
